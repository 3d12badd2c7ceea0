import Verif.Spec.Main
import Mathlib.Algebra.Order.Ring.Abs
import Mathlib.Data.Int.Cast.Lemmas

/-!
# Specification of the values which a float32 holds exactly
-/

namespace Verif.Spec

open Verif Verif.MatchingCost Verif.ImgTools

variable {K : Type} [Field K] [LinearOrder K]

/-- The number is a finite float32: a significand of 24 bits and an exponent between -149 and 104. -/
def IsFloat32 (x : K) : Prop := ∃ m e : Int, |m| < 2 ^ 24 ∧ -149 ≤ e ∧ e ≤ 104 ∧ x = (m : K) * (2 : K) ^ e

/-- The disparities asked for the pixels of an image of `H` rows and `W` columns are less than `b` in absolute value. -/
def LessThan (d : Disp) (H W : Nat) (b : Int) : Prop :=
  ∀ r c : Int, 0 ≤ r → r < H → 0 ≤ c → c < W → |initAt d r c| + d.range < b

end Verif.Spec
