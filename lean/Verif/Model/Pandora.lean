import Verif.Model.ImgTools

/-!
# Contracts of the Pandora functions called by Pandora2D

Pandora is external: its source is not in /repo. The definitions below state the behaviour assumed from it, they are part
of the trusted base (DESIGN.md, section 5).
-/

namespace Verif.Pandora

open Verif Verif.ImgTools

variable {K : Type} [Field K] [LinearOrder K]

/-- `AbstractMatchingCost.get_min_max_from_grid` (called at matching_cost.py 329-330): integer bounds of the grids. -/
def minMaxFromGrid (gmin gmax : Arr2 Int) : Int × Int := (minOf (gridVals gmin), maxOf (gridVals gmax))

/-- `AbstractMatchingCost.get_disparity_range` (called at matching_cost.py 333-335): `arange(min, max + 1)` without
subpixel, otherwise `arange(min, max, 1 / subpix)` followed by `max`. -/
def disparityRange (lo hi : Int) (s : Nat) : Arr1 K :=
  if s = 1 then ⟨(hi + 1 - lo).toNat, fun i => (lo : K) + (i : K)⟩
  else
    let n := ((hi - lo) * (s : Int)).toNat
    ⟨n + 1, fun i => if i < n then (lo : K) + (i : K) / (s : K) else (hi : K)⟩

/-- `AbstractMatchingCost.get_coordinates` (called at matching_cost.py 385-389, and by Pandora for the columns): the
progression of the given step in the image coordinates `c0, …, c0 + n - 1` which goes through `c0 + margin`. -/
def getCoordinates (margin : Int) (c0 : Int) (n : Nat) (step : Nat) : Arr1 Int :=
  arangeA (c0 + margin % step) (c0 + n) step

/-- Columns of the cost volume allocated by Pandora (`allocate_cost_volume`, called at matching_cost.py 262-264). -/
def colCoordinates (margin : Option Int) (c0 : Int) (n : Nat) (step : Nat) : Arr1 Int :=
  match margin with
  | none => arangeA c0 (c0 + n) step
  | some m => getCoordinates m c0 n step

/-- A matching cost: `compute_cost_volume` followed by `cv_masked` (called at matching_cost.py 360-362).
`pc left right gmin gmax r c d` is the value at image row index `r`, column index `c`, column disparity `d`. -/
abbrev Cost (K : Type) := Img K → Img K → Arr2 Int → Arr2 Int → Nat → Nat → K → F K

/-- The mask of the image flags no-data at this pixel. -/
def noDataAt (img : Img K) (r c : Nat) : Bool :=
  match img.msk with
  | none => false
  | some m => decide (m r c = img.noDataMask)

/-- The mask of the image declares this pixel invalid (neither valid nor no-data). -/
def invalidAt (img : Img K) (r c : Nat) : Bool :=
  match img.msk with
  | none => false
  | some m => decide (m r c ≠ img.noDataMask ∧ m r c ≠ img.validPixels)

variable [IsStrictOrderedRing K] [FloorRing K]

/-- Linear interpolation of row `r` of an image at the (fractional) column `x`. -/
def sampleCol (img : Img K) (r : Nat) (x : K) : F K :=
  if Int.fract x = 0 then img.im r ⌊x⌋.toNat
  else F.add (F.mul (.fin (1 - Int.fract x)) (img.im r ⌊x⌋.toNat)) (F.mul (.fin (Int.fract x)) (img.im r (⌊x⌋.toNat + 1)))

/-- The pairs (left value, right value) of the window of half-size `hw` centred on `(r, c)` and `(r, x)`. -/
def windowPairs (hw : Nat) (left right : Img K) (r c : Nat) (x : K) : List (F K × F K) :=
  (List.range (2 * hw + 1)).flatMap fun a => (List.range (2 * hw + 1)).map fun b =>
    (left.im (r + a - hw) (c + b - hw), sampleCol right (r + a - hw) (x + (b : K) - (hw : K)))

/-- Conditions under which Pandora keeps the cost of a window (otherwise NaN): both windows inside the images, disparity
inside the range of the pixel, no no-data in the windows, no invalid centre. -/
def windowOk (hw : Nat) (left right : Img K) (gmin gmax : Arr2 Int) (r c : Nat) (d : K) : Prop :=
  (hw ≤ r ∧ r + hw < left.h ∧ hw ≤ c ∧ c + hw < left.w) ∧
  ((hw : Int) ≤ ⌊(c : K) + d⌋ ∧ ⌈(c : K) + d⌉ + (hw : Int) < right.w) ∧
  ((gmin.get r c : K) ≤ d ∧ d ≤ (gmax.get r c : K)) ∧
  (∀ a < 2 * hw + 1, ∀ b < 2 * hw + 1, noDataAt left (r + a - hw) (c + b - hw) = false) ∧
  (∀ a < 2 * hw + 1, ∀ x : Nat, ⌊(c : K) + d⌋ ≤ (x : Int) + hw → (x : Int) ≤ ⌈(c : K) + d⌉ + hw →
    noDataAt right (r + a - hw) x = false) ∧
  invalidAt left r c = false ∧ invalidAt right r ⌊(c : K) + d⌋.toNat = false ∧
  invalidAt right r ⌈(c : K) + d⌉.toNat = false

open Classical in
/-- A window based matching cost (SAD, SSD, ZNCC according to `ker`), idealised. -/
noncomputable def windowCost (hw : Nat) (ker : List (F K × F K) → F K) : Cost K := fun left right gmin gmax r c d =>
  if windowOk hw left right gmin gmax r c d then ker (windowPairs hw left right r c ((c : K) + d)) else .nan

end Verif.Pandora
