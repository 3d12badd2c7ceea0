import Verif.Spec.Winner

/-!
# Specification of two executions which differ by their steps
-/

namespace Verif.Spec

open Verif Verif.Config Verif.MatchingCost Verif.Disparity Verif.Main

variable {K : Type} [Field K] [LinearOrder K]

/-- The margins which Pandora gives for the matching cost section of the user. -/
def MarginsAre (w : World K) (mc : Fields) (mar : Margins) : Prop :=
  ∃ c st wn, matchingCostCheck w.pandora (J.obj mc).convAll = .ok (c, st, wn, mar)

/-- Two configurations with the same images and disparities, whose pipelines stop at the disparity maps, and whose matching cost sections
give the same subpixel factor, type of measure and cost. -/
structure SameMatcher (w : World K) (user user' p p' mc mc' : Fields) (n : Nat) (m : Measure) (pc : Pandora.Cost K) : Prop where
  input : user.get "input" = user'.get "input"
  noRefinement : p.get "refinement" = none ∧ p'.get "refinement" = none
  matcher : MatcherIs w mc n m pc ∧ MatcherIs w mc' n m pc

/-- The same with the same region, the same estimation, and matching cost sections which give the same margins. -/
structure SameMatching (w : World K) (user user' p p' mc mc' : Fields) (n : Nat) (m : Measure) (pc : Pandora.Cost K) : Prop where
  same : SameMatcher w user user' p p' mc mc' n m pc
  roi : user.get "ROI" = user'.get "ROI"
  estimation : p.get "estimation" = p'.get "estimation"
  margins : ∃ mar, MarginsAre w mc mar ∧ MarginsAre w mc' mar

/-- The rasters hold the same values at the pixels they share: both have their first pixel at the same place, one has a pixel every
`a` rows and `b` columns, the other every `a'` rows and `b'` columns. -/
def AgreeOnCommon (f f' : Save.Files K (F K)) (a b a' b' : Nat) : Prop :=
  ∀ i j i' j', i < f.row.h → j < f.row.w → i' < f'.row.h → j' < f'.row.w → i * a = i' * a' → j * b = j' * b' →
    f.row.values i j = f'.row.values i' j' ∧ f.col.values i j = f'.col.values i' j' ∧ f.score.values i j = f'.score.values i' j'

end Verif.Spec
