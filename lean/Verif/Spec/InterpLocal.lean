import Verif.Spec.InterpMain
import Verif.Spec.Local
import Verif.Spec.Symmetry

/-!
# Specification of two executions with an interpolation
-/

namespace Verif.Spec

open Verif Verif.Config Verif.MatchingCost Verif.ImgTools Verif.Disparity Verif.Main Verif.Interpolation

variable {K : Type} [Field K] [LinearOrder K]

/-- A configuration on full images, without estimation, with an interpolation and a window cost. -/
structure Interpolated [IsStrictOrderedRing K] [FloorRing K] (w : World K) (user p mc inp l r f : Fields) (H W : Nat) (dRow dCol : Disp)
    (sr sc : Nat) (invalid : F K) (n hw : Nat) (me : Measure) (ker : List (F K × F K) → F K) : Prop where
  input : user.get "input" = some (.obj inp)
  left : inp.get "left" = some (.obj l)
  right : inp.get "right" = some (.obj r)
  full : user.get "ROI" = none
  pipeline : user.get "pipeline" = some (.obj p)
  noEstimation : p.get "estimation" = none
  refinement : p.get "refinement" = some (.obj f)
  method : f.get "refinement_method" = some (.str "interpolation")
  cost : p.get "matching_cost" = some (.obj mc)
  matcher : MatcherIs w mc n me (Pandora.windowCost hw ker)
  asks : Asks w user H W dRow dCol 0 ((H : Int) - 1) 0 ((W : Int) - 1) sr sc invalid

/-- Two axes which hold the same numbers. -/
def SameAxis (a a' : Arr1 K) : Prop := a'.n = a.n ∧ ∀ i < a.n, a'.get i = a.get i

/-- `interp2d` only reads what its arguments hold, when they are not empty. -/
def ReadsInside (e : IExt K) : Prop :=
  ∀ ax ay ax' ay' m m', SameAxis ax ax' → SameAxis ay ay' → 0 < ax.n → 0 < ay.n → (m.h = ay.n ∧ m.w = ax.n) → (m'.h = ay.n ∧ m'.w = ax.n) →
    (∀ j < ay.n, ∀ i < ax.n, m'.get j i = m.get j i) → e.interp2d ax' ay' m' = e.interp2d ax ay m

end Verif.Spec
