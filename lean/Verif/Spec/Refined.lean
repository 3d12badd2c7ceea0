import Verif.Spec.Winner
import Verif.Spec.Dichotomy
import Verif.Spec.Wider
import Verif.Spec.Main

/-!
# Specification of a refined execution against the same execution without refinement
-/

namespace Verif.Spec

open Verif Verif.Config Verif.MatchingCost Verif.ImgTools Verif.Disparity Verif.Main

variable {K : Type} [Field K] [LinearOrder K]

/-- A pixel before and after a refinement, whose intervals are `[lor, hir]` and `[loc, hic]`: each disparity moved by at most `e`. Both are kept when one of them is the invalid value or an end of its interval. When the costs exist at the former
disparities, the score is not worse than this cost. -/
structure Moved (m : Measure) (cost : K → K → F K) (e : K) (lor hir loc hic : Int) (invalid row0 col0 row col score : F K) : Prop where
  near : WithinOf e row0 row ∧ WithinOf e col0 col
  kept : (row0 = invalid ∨ col0 = invalid) ∨ (AtEnd lor hir row0 ∨ AtEnd loc hic col0) → row = row0 ∧ col = col0
  score : ∀ x y, row0 = .fin x → col0 = .fin y → row0 ≠ invalid → col0 ≠ invalid → cost x y ≠ .nan →
    score ≠ .nan ∧ AtLeastAsGood m score (cost x y)

/-- Two configurations on the same full images, without estimation: the first one refines with a dichotomy of `it` iterations, the second
one stops at the disparity maps. They have the same subpixel factor, type of measure and cost. -/
structure RefinedAndNot (w : World K) (user user' p p' mc mc' inp inp' f : Fields) (n it : Nat) (m : Measure) (pc : Pandora.Cost K) :
    Prop where
  inputs : user.get "input" = some (.obj inp) ∧ user'.get "input" = some (.obj inp')
  left : ∃ v, inp.get "left" = some v ∧ inp'.get "left" = some v
  right : ∃ v, inp.get "right" = some v ∧ inp'.get "right" = some v
  full : user.get "ROI" = none ∧ user'.get "ROI" = none
  pipelines : user.get "pipeline" = some (.obj p) ∧ user'.get "pipeline" = some (.obj p')
  noEstimation : p.get "estimation" = none ∧ p'.get "estimation" = none
  refinement : p.get "refinement" = some (.obj f) ∧ p'.get "refinement" = none
  method : f.get "refinement_method" = some (.str "dichotomy")
  iterations : IterationsIs f it
  costs : p.get "matching_cost" = some (.obj mc) ∧ p'.get "matching_cost" = some (.obj mc')
  matcher : MatcherIs w mc n m pc ∧ MatcherIs w mc' n m pc

end Verif.Spec
