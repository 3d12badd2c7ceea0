import Mathlib.Order.Defs.LinearOrder

/-!
# Specification of the masking by the disparity range of each pixel
-/

namespace Verif.Spec

variable {K : Type} [LinearOrder K]

/-- Disparity `d` is outside the range `[lo, hi]` of a pixel. -/
def Outside (d lo hi : K) : Prop := ¬ (lo ≤ d ∧ d ≤ hi)

/-- Disparity `d` belongs to the global range when there is one. -/
def InGlobal (d : K) : Option (K × K) → Prop
  | none => True
  | some (g0, g1) => g0 ≤ d ∧ d ≤ g1

/-- The range `[lo, hi]` of a pixel lies in the global range when there is one. -/
def Within (lo hi : K) : Option (K × K) → Prop
  | none => True
  | some (g0, g1) => g0 ≤ lo ∧ lo ≤ g1 ∧ g0 ≤ hi ∧ hi ≤ g1

end Verif.Spec
