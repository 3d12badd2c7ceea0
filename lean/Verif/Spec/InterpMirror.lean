import Verif.Spec.InterpExchange
import Verif.Spec.RefinedMirror

/-!
# Specification of an interpolation on mirrored images
-/

namespace Verif.Spec

open Verif Verif.Config Verif.MatchingCost Verif.ImgTools Verif.Disparity Verif.Main Verif.Interpolation

variable {K : Type} [Field K] [LinearOrder K]

/-- The axis `a'` is `a`, or its opposites from the other end when `t` holds. -/
def MirroredAxis (t : Bool) (a a' : Arr1 K) : Prop := a'.n = a.n ∧ ∀ i < a.n, a'.get (turned t a.n i) = opposed t (a.get i)

/-- An interval, opposed when `t` holds. -/
def opposedPair (t : Bool) (b : K × K) : K × K := if t then (-b.2, -b.1) else b

/-- The surface of mirrored increasing axes and of the mirrored matrix is the mirrored surface, and the minimisation of a mirrored surface from the mirrored point
in the mirrored bounds ends at the mirrored point. -/
structure Mirrors (tr tc : Bool) (e : IExt K) : Prop where
  surface : ∀ ax ay ax' ay' m m' f, (0 < ax.n ∧ ∀ i j, i < j → j < ax.n → ax.get i < ax.get j) →
    (0 < ay.n ∧ ∀ i j, i < j → j < ay.n → ay.get i < ay.get j) → MirroredAxis tc ax ax' → MirroredAxis tr ay ay' → (m.h = ay.n ∧ m.w = ax.n) →
    (m'.h = ay.n ∧ m'.w = ax.n) → (∀ j < ay.n, ∀ i < ax.n, m'.get (turned tr ay.n j) (turned tc ax.n i) = m.get j i) →
    e.interp2d ax ay m = .ok f → e.interp2d ax' ay' m' = .ok fun x y => f (opposed tc x) (opposed tr y)
  search : ∀ f a b bx byy, e.minimize (fun x y => f (opposed tc x) (opposed tr y)) (opposedF tc a, opposedF tr b)
    (opposedPair tc bx, opposedPair tr byy) = Prod.map (opposed tc) (opposed tr) (e.minimize f (a, b) (bx, byy))

end Verif.Spec
