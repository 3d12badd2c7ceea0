import Verif.Spec.Main
import Verif.Spec.Disparity
import Verif.Spec.MatchingCost
import Verif.Spec.Translation

/-!
# Specification of the disparities of a whole execution: the best pair of each pixel
-/

namespace Verif.Spec

open Verif Verif.Config Verif.ImgTools Verif.MatchingCost Verif.Main Verif.Disparity

variable {K : Type} [Field K] [LinearOrder K]

/-- The pairs of disparities asked for the pixel at row `r` and column `c` of the left image: multiples of `1 / n` in its two intervals. -/
def AskedPair (dRow dCol : Disp) (n : Nat) (r c : Int) (dr dc : K) : Prop :=
  (∃ a b : Int, dr * n = a ∧ dc * n = b) ∧
  (((initAt dRow r c - dRow.range : Int) : K) ≤ dr ∧ dr ≤ ((initAt dRow r c + dRow.range : Int) : K)) ∧
  (((initAt dCol r c - dCol.range : Int) : K) ≤ dc ∧ dc ≤ ((initAt dCol r c + dCol.range : Int) : K))

/-- What a pixel of the rasters holds: the invalid value three times when no pair has a cost. Otherwise the best cost, the smallest row
disparity which reaches it and the smallest column disparity which reaches it. -/
structure BestPair (m : Measure) (asked : K → K → Prop) (cost : K → K → F K) (invalid row col score : F K) : Prop where
  invalid : (∀ dr dc, asked dr dc → cost dr dc = .nan) → row = invalid ∧ col = invalid ∧ score = invalid
  best : (∃ dr dc, asked dr dc ∧ cost dr dc ≠ .nan) →
    IsBest m (fun x => x ≠ .nan ∧ ∃ dr dc, asked dr dc ∧ cost dr dc = x) score
  smallest : (∃ dr dc, asked dr dc ∧ cost dr dc ≠ .nan) → ∃ dr dc, row = .fin dr ∧ col = .fin dc ∧
    (∃ dc', asked dr dc' ∧ cost dr dc' = score) ∧ (∃ dr', asked dr' dc ∧ cost dr' dc = score) ∧
    ∀ dr' dc', asked dr' dc' → cost dr' dc' = score → dr ≤ dr' ∧ dc ≤ dc'

/-- The subpixel factor, the type of measure and the cost which Pandora chooses for the matching cost section of the user. -/
def MatcherIs (w : World K) (mc : Fields) (n : Nat) (m : Measure) (pc : Pandora.Cost K) : Prop :=
  ∃ c st wn mar g s, matchingCostCheck w.pandora (J.obj mc).convAll = .ok (c, st, wn, mar) ∧ c = .obj g ∧ g.get "subpix" = some s ∧
    IsInt true s n ∧ m = w.measure c ∧ pc = w.cost c

/-- The images read from the disk for the left and right sections `l` and `r` of the user, completed: the values given by the user are
those used to read. -/
def ImagesRead (w : World K) (l r : Fields) (roi : Option Roi) (left right : Img K) : Prop :=
  ∃ lj rj, (∀ k v, l.get k = some v → v.isLeaf = true → lj.get k = some (readValue v)) ∧
    (∀ k v, r.get k = some v → v.isLeaf = true → rj.get k = some (readValue v)) ∧
    w.files.read (.obj lj) roi = .ok left ∧ w.files.read (.obj rj) roi = .ok right

/-- The zone of the matching: the whole image, or the crop of the ROI with its margins. -/
def ReadZone (img : Img K) (roi : Option Roi) (H W : Nat) (rowFirst rowLast colFirst colLast : Int) : Prop :=
  match roi with
  | none => img.row0 = 0 ∧ img.col0 = 0 ∧ img.h = H ∧ img.w = W ∧ rowFirst = 0 ∧ rowLast = (H : Int) - 1 ∧ colFirst = 0 ∧
    colLast = (W : Int) - 1
  | some R => CropOk img R H W ∧ R.rowFirst = rowFirst ∧ R.rowLast = rowLast ∧ R.colFirst = colFirst ∧ R.colLast = colLast

/-- The image `out` is `img` displaced by `d` rows: linear interpolation of the rows, no-data outside; the pixels equal to the no-data
value are flagged and no other pixel is. -/
structure Displaced (out img : Img K) (d : K) : Prop where
  size : out.h = img.h ∧ out.w = img.w
  noData : out.noData = img.noData
  samples : SamplesAt out img d
  flags : ∀ r c, Pandora.noDataAt out r c = F.eq (out.im r c) img.noData
  valid : ∀ r c, Pandora.invalidAt out r c = false

/-- A grid which holds the disparities of the pixels of an image plus `k`. -/
def GridIs (g : Arr2 Int) (img : Img K) (d : Disp) (k : Int) : Prop :=
  ∀ x < img.h, ∀ y < img.w, g.get x y = initAt d (img.row0 + x) (img.col0 + y) + k

/-! ## A translation between the two images -/

/-- A disparity of whole pixels in the intervals of the pixel at row `r` and column `c`. -/
def InIntervals (dRow dCol : Disp) (r c dr dc : Int) : Prop :=
  (initAt dRow r c - dRow.range ≤ dr ∧ dr ≤ initAt dRow r c + dRow.range) ∧
  (initAt dCol r c - dCol.range ≤ dc ∧ dc ≤ initAt dCol r c + dCol.range)

/-- The window of half-size `hw` centred on `(a, b)` of the left image and the window displaced by `(dr, dc)` of the right image differ:
some pixel of the first has no equal pixel in the second. -/
def WindowsDiffer (hw : Nat) (left right : Img K) (a b : Nat) (dr dc : Int) : Prop :=
  ∃ x y : Nat, (a ≤ x + hw ∧ x ≤ a + hw) ∧ (b ≤ y + hw ∧ y ≤ b + hw) ∧
    ∀ x' y' : Nat, (x' : Int) = x + dr → (y' : Int) = y + dc → x' < right.h → y' < right.w → right.im x' y' ≠ left.im x y

/-- The kernel is null on equal windows only. -/
def OnlyEqual (ker : List (F K × F K) → F K) : Prop := ∀ l, ker l = .fin 0 → ∀ p ∈ l, ∃ k, p = (.fin k, .fin k)

end Verif.Spec
