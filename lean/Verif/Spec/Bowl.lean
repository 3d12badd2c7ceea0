import Verif.Spec.Searched

/-!
# Specification of an optimum between the samples
-/

namespace Verif.Spec

open Verif Verif.ImgTools

variable {K : Type} [Field K] [LinearOrder K]

/-- A quadratic surface with its optimum `e` at `(x0, y0)`. -/
def bowlAt (a b e x0 y0 x y : K) : K := a * (x - x0) ^ 2 + b * (y - y0) ^ 2 + e

/-- Its optimum is the best value: the surface opens upwards for a difference, downwards for a similarity. -/
def Opens (me : Measure) (a b : K) : Prop :=
  match me with
  | .min => 0 < a ∧ 0 < b
  | .max => a < 0 ∧ b < 0

/-- The costs of a pixel, sampled at the multiples of `1 / n`, are those of the surface at the samples around its optimum, and none of those
asked for is better than the surface. -/
structure BowlCost (me : Measure) (n : Nat) (asked : K → K → Prop) (cost : K → K → F K) (a b e x0 y0 : K) : Prop where
  opens : Opens me a b
  near : ∀ X Y : Int, |(X : K) / n - x0| ≤ 5 / 2 / n → |(Y : K) / n - y0| ≤ 5 / 2 / n →
    cost ((X : K) / n) ((Y : K) / n) = .fin (bowlAt a b e x0 y0 ((X : K) / n) ((Y : K) / n))
  above : ∀ x y, asked x y → cost x y = .nan ∨ AtLeastAsGood me (.fin (bowlAt a b e x0 y0 x y)) (cost x y)

/-- The optimum along one axis for the pixel at row `r` and column `c`: more than half a sample inside the interval, and with the samples around
it inside when the intervals are a grid. -/
structure OptimumInside (d : Disp) (n : Nat) (r c : Int) (x0 : K) : Prop where
  low : ((initAt d r c - d.range : Int) : K) + 1 / 2 / n < x0
  high : x0 + 1 / 2 / n < ((initAt d r c + d.range : Int) : K)
  around : (∃ v, d.init = .const v) ∨
    (((initAt d r c - d.range : Int) : K) + 5 / 2 / n ≤ x0 ∧ x0 + 5 / 2 / n ≤ ((initAt d r c + d.range : Int) : K))

end Verif.Spec
