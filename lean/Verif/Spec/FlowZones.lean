import Verif.Spec.Flowed
import Verif.Spec.Tiles

/-!
# Specification of regions with an optical flow
-/

namespace Verif.Spec

open Verif Verif.Config Verif.MatchingCost Verif.ImgTools Verif.Disparity Verif.Main

variable {K : Type} [Field K] [LinearOrder K]

/-- The configuration of `Flowed`, on the zone of the rows `rf` to `rl` and of the columns `cf` to `cl`: a region of interest, or the full
images. -/
structure FlowedZone [IsStrictOrderedRing K] [FloorRing K] (w : World K) (user p mc inp l r f : Fields) (H W : Nat) (dRow dCol : Disp)
    (rf rl cf cl : Int) (sr sc : Nat) (invalid : F K) (n hw : Nat) (me : Measure) (ker : List (F K × F K) → F K) (it half : Nat) : Prop where
  input : user.get "input" = some (.obj inp)
  left : inp.get "left" = some (.obj l)
  right : inp.get "right" = some (.obj r)
  pipeline : user.get "pipeline" = some (.obj p)
  noEstimation : p.get "estimation" = none
  refinement : p.get "refinement" = some (.obj f)
  method : f.get "refinement_method" = some (.str "optical_flow")
  iterations : FlowIterationsIs f it
  cost : p.get "matching_cost" = some (.obj mc)
  window : HalfWindowIs w mc half
  matcher : MatcherIs w mc n me (Pandora.windowCost hw ker)
  asks : Asks w user H W dRow dCol rf rl cf cl sr sc invalid

/-- The pixel of row `r` and column `c` has points of the zone on each of its sides, at least `half` away: one row out of `sr` and one column out of
`sc` are points. -/
def InnerOfZone (rf rl cf cl : Int) (sr sc half : Nat) (r c : Int) : Prop :=
  ((∃ k : Nat, half ≤ k * sr ∧ rf ≤ r - (k : Int) * sr) ∧ ∃ k : Nat, half ≤ k * sr ∧ r + (k : Int) * sr ≤ rl) ∧
    (∃ k : Nat, half ≤ k * sc ∧ cf ≤ c - (k : Int) * sc) ∧ ∃ k : Nat, half ≤ k * sc ∧ c + (k : Int) * sc ≤ cl

end Verif.Spec
