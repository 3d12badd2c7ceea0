import Verif.Py.Float

/-! # Specification of the statistics -/

namespace Verif.Spec

open Verif

variable {K : Type} [Field K] [LinearOrder K]

/-- The pixel is valid: it is neither NaN nor the invalid value. -/
def ValidFor (invalid : Option (F K)) (v : F K) : Prop := v ≠ .nan ∧ some v ≠ invalid

/-- `xs` are the valid pixels of the map `l`, in some order, all finite. -/
def ValidValues (invalid : Option (F K)) (l : List (F K)) (xs : List K) : Prop :=
  open Classical in (l.filter fun v => decide (ValidFor invalid v)).Perm (xs.map .fin)

/-- `m` is the mean of `xs`. -/
def IsMean (xs : List K) (m : K) : Prop := m * xs.length = xs.sum

/-- `v` is the mean of the squared differences to `m`. -/
def IsVariance (xs : List K) (m v : K) : Prop := v * xs.length = (xs.map fun x => (x - m) * (x - m)).sum

/-- `v` is the quantile of level `p / 20` of `xs`: with the values in increasing order, the position `p / 20 * (n - 1)`, with a linear
interpolation between two values. -/
def IsQuantile (xs : List K) (p : Nat) (v : K) : Prop :=
  ∀ s : List K, s.Perm xs → s.Pairwise (· ≤ ·) → ∃ (k r : Nat) (a b : K), 20 * k + r = p * (xs.length - 1) ∧ r < 20 ∧
    s[k]? = some a ∧ (s[k + 1]? = some b ∨ (r = 0 ∧ b = a)) ∧ 20 * v = (20 - (r : K)) * a + (r : K) * b

end Verif.Spec
