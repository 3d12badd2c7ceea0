import Verif.Model.Filters
import Mathlib.Algebra.BigOperators.Group.Finset.Basic

/-!
# Specification of the interpolation filters
-/

namespace Verif.Spec

open Verif

variable {K : Type} [Field K]

/-- Coefficients `q a b` of a polynomial of degree at most two in each of two variables. -/
def biquadratic (q : Fin 3 → Fin 3 → K) (x y : K) : K :=
  q 0 0 + q 0 1 * y + q 0 2 * y ^ 2 + (q 1 0 + q 1 1 * y + q 1 2 * y ^ 2) * x + (q 2 0 + q 2 1 * y + q 2 2 * y ^ 2) * x ^ 2

/-- All the samples of the window of `size` rows and columns starting at `(r0, c0)` are finite. -/
def FiniteWindow (im : Arr2 (F K)) (r0 c0 : Int) (size : Nat) : Prop :=
  ∀ i j : Nat, i < size → j < size → ∃ v, im.get (r0 + i).toNat (c0 + j).toNat = .fin v

/-- The window of `size` rows and columns starting at `(r0, c0)` is inside the image. -/
def AreaInside {α : Type} (im : Arr2 α) (r0 c0 : Int) (size : Nat) : Prop :=
  0 ≤ r0 ∧ r0 + size ≤ im.h ∧ 0 ≤ c0 ∧ c0 + size ≤ im.w

end Verif.Spec
