import Verif.Spec.InterpLocal
import Verif.Spec.Whole

/-!
# Specification of an interpolation on exchanged axes
-/

namespace Verif.Spec

open Verif Verif.Config Verif.MatchingCost Verif.ImgTools Verif.Disparity Verif.Main Verif.Interpolation

variable {K : Type} [Field K] [LinearOrder K]

/-- The surface of the exchanged axes and of the transposed matrix is the exchanged surface, and the minimisation of an exchanged surface from an
exchanged point in exchanged bounds ends at the exchanged point. -/
structure Exchanges (e : IExt K) : Prop where
  surface : ∀ ax ay m m' f, 0 < ax.n → 0 < ay.n → (m.h = ay.n ∧ m.w = ax.n) → (m'.h = ax.n ∧ m'.w = ay.n) →
    (∀ j < ay.n, ∀ i < ax.n, m'.get i j = m.get j i) → e.interp2d ax ay m = .ok f → e.interp2d ay ax m' = .ok fun x y => f y x
  search : ∀ f a b bx byy, e.minimize (fun x y => f y x) (b, a) (byy, bx) = (e.minimize f (a, b) (bx, byy)).swap

/-- The intervals of the pixel are those of all the pixels, and all its displacements by the intervals extended by three have a cost. -/
structure AllCosts [IsStrictOrderedRing K] [FloorRing K] (hw : Nat) (ker : List (F K × F K) → F K) (left right : Img K) (dRow dCol : Disp) (a b : Nat) : Prop where
  rows : ∀ f l, Extent dRow left f l → f = initAt dRow a b - dRow.range ∧ l = initAt dRow a b + dRow.range
  cols : ∀ f l, Extent dCol left f l → f = initAt dCol a b - dCol.range ∧ l = initAt dCol a b + dCol.range
  costs : ∀ x y : Int, initAt dRow a b - dRow.range - 3 ≤ x → x ≤ initAt dRow a b + dRow.range + 3 → initAt dCol a b - dCol.range - 3 ≤ y →
    y ≤ initAt dCol a b + dCol.range + 3 → wholeCost hw ker left right a b x y ≠ .nan

end Verif.Spec
