import Verif.Model.MatchingCost
import Verif.Spec.ImgTools
import Verif.Spec.Masking
import Verif.Spec.Disparity

/-!
# Specifications for the matching cost step
-/

namespace Verif.Spec

open Verif Verif.ImgTools Verif.MatchingCost

/-- Grids of the shape of the image, with `min ≤ max` at each pixel, and a global interval which is their tight hull: what
`add_disparity_grid` produces (theorem `ranges_wf`). -/
structure RangesOk (M : MinMax) (h w : Nat) : Prop where
  shape : M.lo.h = h ∧ M.lo.w = w ∧ M.hi.h = h ∧ M.hi.w = w
  ordered : ∀ r < h, ∀ c < w, M.lo.get r c ≤ M.hi.get r c
  inside : ∀ r < h, ∀ c < w, M.src.1 ≤ M.lo.get r c ∧ M.hi.get r c ≤ M.src.2
  tightLo : ∃ r < h, ∃ c < w, M.lo.get r c = M.src.1
  tightHi : ∃ r < h, ∃ c < w, M.hi.get r c = M.src.2

/-- A pair of images of the same non empty shape with their disparity ranges. -/
structure PairOk {K : Type} (left : Left K) (right : Img K) : Prop where
  hpos : 0 < left.img.h
  wpos : 0 < left.img.w
  sameH : right.h = left.img.h
  sameW : right.w = left.img.w
  col : RangesOk left.colDisp left.img.h left.img.w
  row : RangesOk left.rowDisp left.img.h left.img.w

/-- The disparity grid displaced by `d`. -/
def widened (g : Arr2 Int) (d : Int) : Arr2 Int := ⟨g.h, g.w, fun r c => g.get r c + d⟩

/-- Value of the linear interpolation of the column `c` of an image at the (fractional) row `q + f`, `0 ≤ f < 1`. -/
def lerpRow {K : Type} [Field K] [LinearOrder K] (img : Img K) (q : Nat) (f : K) (c : Nat) : F K :=
  if f = 0 then img.im q c else F.add (F.mul (.fin (1 - f)) (img.im q c)) (F.mul (.fin f) (img.im (q + 1) c))

/-- The image `out` samples `img` displaced by `d` rows: at every pixel it holds the linear interpolation of `img` at row
`r + d` when this position is inside the image, and no-data otherwise. -/
def SamplesAt {K : Type} [Field K] [LinearOrder K] (out img : Img K) (d : K) : Prop :=
  ∀ r < img.h, ∀ c < img.w,
    (∀ (q : Nat) (f : K), 0 ≤ f → f < 1 → (r : K) + d = q + f → (r : K) + d ≤ ((img.h - 1 : Nat) : K) →
      out.im r c = lerpRow img q f c) ∧
    ((r : K) + d < 0 ∨ ((img.h - 1 : Nat) : K) < (r : K) + d → out.im r c = img.noData)

/-- What is assumed from a Pandora matching cost: it is a finite value or NaN, it is NaN when the displaced column does not
exist, and NaN when the whole right row is no-data. -/
structure CostContract {K : Type} [Field K] [LinearOrder K] (pc : Pandora.Cost K) : Prop where
  finite : ∀ left right gmin gmax r c d, pc left right gmin gmax r c d ≠ .ninf ∧ pc left right gmin gmax r c d ≠ .pinf
  colOut : ∀ left right gmin gmax (r c : Nat) (d : K), ((c : K) + d < 0 ∨ ((right.w - 1 : Nat) : K) < (c : K) + d) →
    pc left right gmin gmax r c d = .nan
  rowNoData : ∀ left right gmin gmax (r c : Nat) (d : K), (∀ x < right.w, Pandora.noDataAt right r x = true) →
    pc left right gmin gmax r c d = .nan

/-- The dataset is the crop of an `H x W` image by a ROI with its margins (contract of Pandora
`create_dataset_from_inputs`): rows from `first - up` to `last + down` limited to the image, columns likewise. -/
structure CropOk {K : Type} (img : Img K) (roi : Roi) (H W : Nat) : Prop where
  rows : 0 ≤ roi.rowFirst ∧ roi.rowFirst ≤ roi.rowLast ∧ roi.rowLast < H
  cols : 0 ≤ roi.colFirst ∧ roi.colFirst ≤ roi.colLast ∧ roi.colLast < W
  margins : 0 ≤ roi.margins.left ∧ 0 ≤ roi.margins.up ∧ 0 ≤ roi.margins.right ∧ 0 ≤ roi.margins.down
  row0 : img.row0 = max 0 (roi.rowFirst - roi.margins.up)
  col0 : img.col0 = max 0 (roi.colFirst - roi.margins.left)
  row1 : img.row0 + img.h = min (H : Int) (roi.rowLast + roi.margins.down + 1)
  col1 : img.col0 + img.w = min (W : Int) (roi.colLast + roi.margins.right + 1)

/-- The array holds, in increasing order and exactly once, all the multiples of `1 / s` from `x` to `y`. -/
structure FullLattice {K : Type} [Field K] [LinearOrder K] (a : Arr1 K) (x y : Int) (s : Nat) : Prop where
  pos : 0 < a.n
  first : a.get 0 = (x : K)
  last : a.get (a.n - 1) = (y : K)
  spacing : ∀ i, i + 1 < a.n → a.get (i + 1) = a.get i + 1 / (s : K)
  increasing : ∀ i j, i < j → j < a.n → a.get i < a.get j
  complete : ∀ k : Int, (x : K) ≤ (k : K) / (s : K) → (k : K) / (s : K) ≤ (y : K) →
    ∃ i, i < a.n ∧ a.get i = (k : K) / (s : K) ∧ ∀ i', i' < a.n → a.get i' = (k : K) / (s : K) → i' = i

/-- The coordinates are the points of step `step` of the image segment `[c0, c0 + n)` from `start` on, all of them. -/
def IsGrid (x : Arr1 Int) (start c0 : Int) (n step : Nat) : Prop :=
  IsProg x start step ∧ c0 ≤ start ∧ ∀ k, k < x.n ↔ start + (k : Int) * step < c0 + n

end Verif.Spec
