import Verif.Model.ImgTools
import Mathlib.Algebra.Order.Field.Basic
import Mathlib.Algebra.Order.Ring.Rat

/-!
# Specification of the estimation step
-/

namespace Verif.Spec

open Verif Verif.ImgTools

/-- `i` is `x` rounded to the nearest integer, to the even one when there are two. -/
def IsRounding (x : Rat) (i : Int) : Prop :=
  |x - i| ≤ 1 / 2 ∧ (|x - i| = 1 / 2 → i % 2 = 0)

/-- The grids of an image of `h` rows and `w` columns search, at every pixel, the interval of half width `range` centred on the
integer nearest to `x`, announced as the source of the grids. -/
def Searches (g : MinMax) (h w : Nat) (x : Rat) (range : Int) : Prop :=
  ∃ i : Int, IsRounding x i ∧ g.lo.h = h ∧ g.lo.w = w ∧ g.hi.h = h ∧ g.hi.w = w ∧ g.src = (i - range, i + range) ∧
    ∀ r c, g.lo.get r c = i - range ∧ g.hi.get r c = i + range

end Verif.Spec
