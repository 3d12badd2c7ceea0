import Verif.Model.Disparity

/-!
# Specification of the disparity computation (winner takes all)

Only the data of the dataset (`CostVolumes`) and float comparisons are used here.
-/

namespace Verif.Spec

open Verif Verif.Disparity

variable {K : Type} [LinearOrder K]

/-- Index `i` of the column disparity axis belongs to the range asked by the user: the `left * subpixel` first and the
`right * subpixel` last disparities are margins. -/
def UserCol (cv : CostVolumes K) (i : Nat) : Prop :=
  match cv.margins with
  | none => i < cv.dispCol.n
  | some mg => mg.left * cv.subpixel ≤ i ∧ i + mg.right * cv.subpixel < cv.dispCol.n

/-- Index `j` of the row disparity axis belongs to the range asked by the user. -/
def UserRow (cv : CostVolumes K) (j : Nat) : Prop :=
  match cv.margins with
  | none => j < cv.dispRow.n
  | some mg => mg.up * cv.subpixel ≤ j ∧ j + mg.down * cv.subpixel < cv.dispRow.n

/-- `x` is the (computable) cost of a candidate of pixel `(r, c)` in the user's range. -/
def Cand (cv : CostVolumes K) (r c : Nat) (x : F K) : Prop :=
  x ≠ .nan ∧ ∃ i j, UserCol cv i ∧ UserRow cv j ∧ cv.data r c i j = x

/-- No candidate of the pixel is computable. -/
def NoCand (cv : CostVolumes K) (r c : Nat) : Prop :=
  ∀ i j, UserCol cv i → UserRow cv j → cv.data r c i j = .nan

/-- Score `s` is at least as good as `x`: `x ≤ s` for a similarity (`max`), `s ≤ x` for a dissimilarity (`min`). -/
def AtLeastAsGood (m : Measure) (s x : F K) : Prop :=
  match m with
  | .max => F.le x s = true
  | .min => F.le s x = true

/-- `s` is an element of `S` and no element of `S` beats it (maximum or minimum according to the measure). -/
def IsBest (m : Measure) (S : F K → Prop) (s : F K) : Prop :=
  S s ∧ ∀ x, S x → AtLeastAsGood m s x

/-- The pixel exists. -/
def Pixel (cv : CostVolumes K) (r c : Nat) : Prop := r < cv.row.n ∧ c < cv.col.n

/-- The infinity that stands for "no candidate" during the computation is not a cost of the volume (matching costs are
finite or NaN). -/
def NoWorst (cv : CostVolumes K) (r c : Nat) : Prop :=
  ∀ i j, UserCol cv i → UserRow cv j → cv.data r c i j ≠ (match cv.measure with | .max => .ninf | .min => .pinf)

/-- A disparity axis as built for a user range `[lo, hi]` with margins `ml`, `mr` and a subpixel factor: all the multiples
of `1/sub` from `lo - ml` to `hi + mr`. -/
def IsAxis {K : Type} [Field K] (a : Arr1 K) (lo hi : Int) (ml mr sub : Nat) : Prop :=
  a.n = ((hi - lo).toNat + ml + mr) * sub + 1 ∧
    ∀ i < a.n, a.get i = ((lo - ml : Int) : K) + (i : K) / (sub : K)

end Verif.Spec
