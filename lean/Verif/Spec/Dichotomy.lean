import Verif.Model.Dichotomy
import Verif.Spec.Disparity
import Verif.Spec.Filters

/-!
# Specification of the dichotomy
-/

namespace Verif.Spec

open Verif Verif.Disparity

variable {K : Type} [Field K] [LinearOrder K]

/-- A disparity which did not change, or two finite disparities at distance at most `e`. -/
def WithinOf (e : K) (a b : F K) : Prop := a = b ∨ ∃ x y, a = .fin x ∧ b = .fin y ∧ |y - x| ≤ e

/-- A disparity which did not change, or two finite disparities whose difference is a multiple of `q`. -/
def OnLattice (q : K) (a b : F K) : Prop := a = b ∨ ∃ x y, a = .fin x ∧ b = .fin y ∧ ∃ n : Int, y - x = n * q

/-- A finite disparity in the closed range `[lo, hi]`. -/
def DispInRange (lo hi : Int) (a : F K) : Prop := ∃ x, a = .fin x ∧ (lo : K) ≤ x ∧ x ≤ (hi : K)

/-- A finite disparity which is a multiple of `1 / sub`. -/
def Multiple (sub : Nat) (a : F K) : Prop := ∃ x, a = .fin x ∧ ∃ n : Int, x * sub = n

/-- The disparity `d` is at an end of the range. -/
def AtEnd (lo hi : Int) (a : F K) : Prop := a = .fin (lo : K) ∨ a = .fin (hi : K)

/-- The disparity is the one which marks invalid pixels. -/
def IsMark (invalid a : F K) : Prop := a = invalid

/-- The worst infinity of a measure. -/
def worstOf (m : Measure) : F K := match m with | .max => .ninf | .min => .pinf

/-- Windows of `size` samples starting `left` (resp. `up`) samples before the position fit in the given margins of the axes. -/
def FitsMargins (left up size : Nat) (mg : Margins) : Prop :=
  (left ≤ mg.left ∧ size ≤ left + mg.right + 2) ∧ (up ≤ mg.up ∧ size ≤ up + mg.down + 2)

end Verif.Spec
