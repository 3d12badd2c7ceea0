import Verif.Model.Main
import Verif.Spec.Datasets
import Verif.Spec.Save
import Verif.Spec.Run
import Verif.Spec.Statistics
import Verif.Model.Statistics
import Verif.Lemmas.Json

/-!
# Specification of whole executions: from the configuration of the user to the files
-/

namespace Verif.Spec

open Verif Verif.Config Verif.ImgTools Verif.MatchingCost Verif.Main Verif.Save

variable {K : Type} [Field K] [LinearOrder K]

/-- What is assumed from the disk and from Pandora's reading: the images of the configuration have `H` rows and `W` columns, they are read
whole without ROI, and cropped by a ROI which is inside the image; the checks and the datasets see grids of the same size. -/
structure DiskContract (w : World K) (H W : Nat) : Prop where
  pos : 0 < H ∧ 0 < W
  grids : ∀ s g, w.env.openGrid s = .ok g → (w.files.grid s).h = g.height ∧ (w.files.grid s).w = g.width
  size : ∀ v s, w.env.imageSize v = .ok s → s = (H, W)
  whole : ∀ v img, w.files.read v none = .ok img → img.row0 = 0 ∧ img.col0 = 0 ∧ img.h = H ∧ img.w = W
  crop : ∀ v R img, w.files.read v (some R) = .ok img → 0 ≤ R.rowFirst ∧ R.rowFirst ≤ R.rowLast ∧ R.rowLast < H →
    0 ≤ R.colFirst ∧ R.colFirst ≤ R.colLast ∧ R.colLast < W →
    0 ≤ R.margins.left ∧ 0 ≤ R.margins.up ∧ 0 ≤ R.margins.right ∧ 0 ≤ R.margins.down → CropOk img R H W

/-- What is assumed from Pandora's matching cost: the subpixel factor is a positive integer, the costs are finite or NaN. -/
structure PandoraContract (w : World K) : Prop where
  subpix : ∀ f a s b m, w.pandora f = .ok (a, s, b, m) → ∃ n, IsInt true s n ∧ 1 ≤ n
  cost : ∀ c, CostContract (w.cost c)

/-- The ROI written by the user. -/
def RoiIs (v : J) (rowFirst rowLast colFirst colLast : Int) : Prop :=
  ∃ f r c a b a' b', v = .obj f ∧ f.get "row" = some (.obj r) ∧ f.get "col" = some (.obj c) ∧
    r.get "first" = some a ∧ r.get "last" = some b ∧ c.get "first" = some a' ∧ c.get "last" = some b' ∧
    IsInt true a rowFirst ∧ IsInt true b rowLast ∧ IsInt true a' colFirst ∧ IsInt true b' colLast

/-- The zone asked by the user: the ROI, or the whole image. -/
def ZoneIs (user : Fields) (H W : Nat) (rowFirst rowLast colFirst colLast : Int) : Prop :=
  (∃ v, user.get "ROI" = some v ∧ RoiIs v rowFirst rowLast colFirst colLast) ∨
  (user.get "ROI" = none ∧ rowFirst = 0 ∧ rowLast = (H : Int) - 1 ∧ colFirst = 0 ∧ colLast = (W : Int) - 1)

/-- The steps written by the user in the matching cost section, one and one by default. -/
def StepIs (mc : Fields) (stepRow stepCol : Nat) : Prop :=
  (∃ a b, mc.get "step" = some (.arr (.cons a (.cons b .nil))) ∧ IsInt true a stepRow ∧ IsInt true b stepCol) ∨
  (mc.get "step" = none ∧ stepRow = 1 ∧ stepCol = 1)

/-- The subpixel factor which Pandora chooses for the matching cost section of the user. -/
def SubpixIs (w : World K) (mc : Fields) (n : Nat) : Prop :=
  ∃ c st wn mar g s, matchingCostCheck w.pandora (J.obj mc).convAll = .ok (c, st, wn, mar) ∧ c = .obj g ∧ g.get "subpix" = some s ∧
    IsInt true s n

/-- The number of iterations of the dichotomy: the number asked by the user, at most 9. -/
def IterationsIs (ref : Fields) (it : Nat) : Prop :=
  ∃ v, ∃ n : Nat, ref.get "iterations" = some v ∧ IsInt true v n ∧ it = min n 9

/-- The number of iterations written by the user in the section of an optical flow, 4 by default. -/
def FlowIterationsIs (ref : Fields) (it : Nat) : Prop :=
  (∃ v, ref.get "iterations" = some v ∧ IsInt true v it) ∨ (ref.get "iterations" = none ∧ it = 4)

/-- A number of the configuration. -/
def NumberIs (v : J) (x : F K) : Prop :=
  (∃ i, IsInt true v i ∧ x = .fin (i : K)) ∨ (∃ q : ℚ, v = .float (.fin q) ∧ x = .fin (q : K)) ∨ (v = .float .nan ∧ x = .nan) ∨
  (v = .float .pinf ∧ x = .pinf) ∨ (v = .float .ninf ∧ x = .ninf)

/-- The invalid disparity written by the user in the disparity section, -9999 by default. -/
def InvalidIs (disp : Fields) (x : F K) : Prop :=
  (∃ v, disp.get "invalid_disparity" = some v ∧ NumberIs (readValue v) x) ∨
  (disp.get "invalid_disparity" = none ∧ x = .fin (-9999))

/-- A range written by the user in the estimation section, 5 by default. -/
def RangeIs (est : Fields) (key : String) (n : Int) : Prop :=
  (∃ v, est.get key = some v ∧ IsInt true v n) ∨ (est.get key = none ∧ n = 5)

/-- What a user asks with a configuration without estimation: the disparities, the zone, the steps and the invalid value. -/
structure Asks (w : World K) (user : Fields) (H W : Nat) (dRow dCol : Disp) (rowFirst rowLast colFirst colLast : Int)
    (stepRow stepCol : Nat) (invalid : F K) : Prop where
  disparities : ∃ inp, user.get "input" = some (.obj inp) ∧ IsDisp w.files inp "row_disparity" dRow ∧
    IsDisp w.files inp "col_disparity" dCol
  zone : ZoneIs user H W rowFirst rowLast colFirst colLast
  steps : ∃ pl mc disp, user.get "pipeline" = some (.obj pl) ∧ pl.get "matching_cost" = some (.obj mc) ∧
    pl.get "disparity" = some (.obj disp) ∧ StepIs mc stepRow stepCol ∧ InvalidIs disp invalid

/-- The geographic transform of the left image, which depends on the path of the image only. -/
def LeftTransform (w : World K) (user : Fields) (tr : Option (Affine K)) : Prop :=
  ∃ inp l p, user.get "input" = some (.obj inp) ∧ inp.get "left" = some (.obj l) ∧ l.get "img" = some (.str p) ∧
    ∀ g, g.get "img" = some (readValue (.str p)) → w.transform (.obj g) = tr

/-- A file which holds the points of a zone, one out of `stepRow` rows and `stepCol` columns, located by its transform. -/
structure ZoneFile {β : Type} (f : File K β) (tr : Option (Affine K)) (rowFirst rowLast colFirst colLast : Int)
    (stepRow stepCol : Nat) : Prop where
  rows : ∀ i, i < f.h ↔ rowFirst + (i : Int) * stepRow ≤ rowLast
  cols : ∀ j, j < f.w ↔ colFirst + (j : Int) * stepCol ≤ colLast
  lost : tr = none → f.transform = none
  located : ∀ t, tr = some t → ∃ o, f.transform = some o ∧ ∀ i < f.h, ∀ j < f.w,
    Locates o t i j (rowFirst + (i : Int) * stepRow) (colFirst + (j : Int) * stepCol) stepRow stepCol

/-- A pixel of the files: invalid in the three files, or its disparities are in the intervals of the pixel at row `r` and column `c` of the
left image. -/
def InOwnRange (files : Save.Files K (F K)) (invalid : F K) (dRow dCol : Disp) (i j : Nat) (r c : Int) : Prop :=
  (files.row.values i j = invalid ∧ files.col.values i j = invalid ∧ files.score.values i j = invalid) ∨
  ∃ dr dc, files.row.values i j = .fin dr ∧ files.col.values i j = .fin dc ∧
    (((initAt dRow r c - dRow.range : Int) : K) ≤ dr ∧ dr ≤ ((initAt dRow r c + dRow.range : Int) : K)) ∧
    (((initAt dCol r c - dCol.range : Int) : K) ≤ dc ∧ dc ≤ ((initAt dCol r c + dCol.range : Int) : K))

/-- A pixel of refined files: invalid in the two files of disparities, or its disparities are multiples of `1 / n` in the intervals of the
pixel at row `r` and column `c` of the left image. -/
def RefinedInOwnRange (files : Save.Files K (F K)) (invalid : F K) (dRow dCol : Disp) (n : Nat) (i j : Nat) (r c : Int) : Prop :=
  (files.row.values i j = invalid ∧ files.col.values i j = invalid) ∨
  ∃ dr dc, files.row.values i j = .fin dr ∧ files.col.values i j = .fin dc ∧
    (((initAt dRow r c - dRow.range : Int) : K) ≤ dr ∧ dr ≤ ((initAt dRow r c + dRow.range : Int) : K)) ∧
    (((initAt dCol r c - dCol.range : Int) : K) ≤ dc ∧ dc ≤ ((initAt dCol r c + dCol.range : Int) : K)) ∧
    (∃ a b : Int, dr * n = a ∧ dc * n = b)

/-- The pixels of a file, row by row. -/
def filePixels {β : Type} (f : File K β) : List β :=
  (List.range f.h).flatMap fun i => (List.range f.w).map fun j => f.values i j

/-- Statistics which describe a file: the mean, the deviation and the quantiles are those of its valid pixels, when it has some and they are
finite. -/
structure DescribesFile (sqrt : F K → F K) (st : Statistics.Stats K) (f : File K (F K)) (invalid : F K) : Prop where
  mean : ∀ xs, ValidValues (some invalid) (filePixels f) xs → xs ≠ [] → ∃ m, st.mean = .fin m ∧ IsMean xs m
  std : ∀ xs, ValidValues (some invalid) (filePixels f) xs → xs ≠ [] →
    ∃ m v, IsMean xs m ∧ IsVariance xs m v ∧ st.std = sqrt (.fin v)
  quantiles : ∀ xs, ValidValues (some invalid) (filePixels f) xs → xs ≠ [] →
    ∃ q : Nat → K, st.quantiles = [.fin (q 2), .fin (q 5), .fin (q 10), .fin (q 15), .fin (q 18)] ∧
      ∀ p ∈ [2, 5, 10, 15, 18], IsQuantile xs p (q p)

/-- The kinds of files. -/
inductive Kind where
  | rasters
  | report
  | config
  | summary
deriving DecidableEq

/-- The kind of what is written. -/
def kindOf : Written K → Kind
  | .rasters _ => .rasters
  | .report _ _ => .report
  | .config _ => .config
  | .summary _ => .summary

end Verif.Spec
