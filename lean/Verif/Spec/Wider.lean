import Verif.Spec.Winner

/-!
# Specification of two executions whose intervals of disparities are nested
-/

namespace Verif.Spec

open Verif Verif.Config Verif.MatchingCost Verif.ImgTools Verif.Disparity Verif.Main

variable {K : Type} [Field K] [LinearOrder K]

/-- At each pixel of an image of `H` rows and `W` columns, the interval of `d` is in the one of `d'`. -/
def Nested (d d' : Disp) (H W : Nat) : Prop :=
  ∀ r c : Int, 0 ≤ r → r < H → 0 ≤ c → c < W →
    initAt d' r c - d'.range ≤ initAt d r c - d.range ∧ initAt d r c + d.range ≤ initAt d' r c + d'.range

/-- Two configurations on the same full images, whose pipelines stop at the disparity maps without estimation, with the same subpixel factor,
type of measure and cost. -/
structure SameImages (w : World K) (user user' p p' mc mc' inp inp' : Fields) (n : Nat) (m : Measure) (pc : Pandora.Cost K) : Prop where
  inputs : user.get "input" = some (.obj inp) ∧ user'.get "input" = some (.obj inp')
  left : ∃ v, inp.get "left" = some v ∧ inp'.get "left" = some v
  right : ∃ v, inp.get "right" = some v ∧ inp'.get "right" = some v
  full : user.get "ROI" = none ∧ user'.get "ROI" = none
  pipelines : user.get "pipeline" = some (.obj p) ∧ user'.get "pipeline" = some (.obj p')
  noEstimation : p.get "estimation" = none ∧ p'.get "estimation" = none
  noRefinement : p.get "refinement" = none ∧ p'.get "refinement" = none
  costs : p.get "matching_cost" = some (.obj mc) ∧ p'.get "matching_cost" = some (.obj mc')
  matcher : MatcherIs w mc n m pc ∧ MatcherIs w mc' n m pc

end Verif.Spec
