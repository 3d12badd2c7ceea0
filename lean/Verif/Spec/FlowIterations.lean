import Verif.Spec.Flowed

/-!
# Specification of two executions with an optical flow whose numbers of iterations differ
-/

namespace Verif.Spec

open Verif

variable {K : Type} [Field K] [LinearOrder K]

/-- The refined disparity `d` of a pixel and its refined disparity `d'` with `m` more iterations: two numbers which are not the invalid value are at
most `m` apart, and when `d` is NaN without being the invalid value, so is `d'`. -/
def MovedByAtMost (m : Nat) (invalid d d' : F K) : Prop :=
  (∀ x y, d = .fin x → d' = .fin y → d ≠ invalid → d' ≠ invalid → |y - x| ≤ (m : K)) ∧ (d = .nan → d ≠ invalid → d' = .nan)

end Verif.Spec
