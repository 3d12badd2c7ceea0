import Verif.Spec.Winner
import Verif.Spec.Estimation

/-!
# Specification of an execution with an estimation against one which is given its result
-/

namespace Verif.Spec

open Verif Verif.Config Verif.MatchingCost Verif.ImgTools Verif.Disparity Verif.Main

variable {K : Type} [Field K] [LinearOrder K]

/-- The sample factor written by the user in the estimation section, 1 by default. -/
def SampleIs (est : Fields) (n : Nat) : Prop :=
  (∃ v, est.get "sample_factor" = some v ∧ IsInt true v n) ∨ (est.get "sample_factor" = none ∧ n = 1)

/-- Two configurations on the same full images whose pipelines are the same but for the estimation, which only the first has. -/
structure EstimatedAndNot (user user' p p' inp inp' l r est : Fields) (rr rc : Int) (sf : Nat) : Prop where
  inputs : user.get "input" = some (.obj inp) ∧ user'.get "input" = some (.obj inp')
  left : inp.get "left" = some (.obj l) ∧ inp'.get "left" = some (.obj l)
  right : inp.get "right" = some (.obj r) ∧ inp'.get "right" = some (.obj r)
  full : user.get "ROI" = none ∧ user'.get "ROI" = none
  pipelines : user.get "pipeline" = some (.obj p) ∧ user'.get "pipeline" = some (.obj p')
  estimation : p.get "estimation" = some (.obj est) ∧ p'.get "estimation" = none
  asked : RangeIs est "range_row" rr ∧ RangeIs est "range_col" rc ∧ SampleIs est sf
  others : ∀ k, k ≠ "estimation" → p'.get k = p.get k

end Verif.Spec
