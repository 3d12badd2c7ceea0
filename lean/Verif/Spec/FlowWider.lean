import Verif.Spec.RefinedWider
import Verif.Spec.Flowed

/-!
# Specification of two executions with an optical flow whose intervals of disparities are nested
-/

namespace Verif.Spec

open Verif

variable {K : Type} [Field K] [LinearOrder K]

/-- The refined disparity `d` of a pixel with the interval `[lo, hi]` and its refined disparity `d'` with the larger interval `[lo', hi']`: they are
equal, or `d` is invalid and `d'` is a number of the larger interval which is not strictly inside the smaller one. -/
def SameOrOutside (lo hi lo' hi' : Int) (invalid d d' : F K) : Prop :=
  d' = d ∨ (d = invalid ∧ ∃ k, d' = .fin k ∧ (k ≤ (lo : K) ∨ (hi : K) ≤ k) ∧ (lo' : K) < k ∧ k < (hi' : K))

end Verif.Spec
