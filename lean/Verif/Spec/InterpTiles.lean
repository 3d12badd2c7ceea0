import Verif.Spec.InterpLocal
import Verif.Spec.RefinedTiles

/-!
# Specification of frames and regions with an interpolation
-/

namespace Verif.Spec

open Verif Verif.Config Verif.MatchingCost Verif.ImgTools Verif.Disparity Verif.Main

variable {K : Type} [Field K] [LinearOrder K]

/-- The configuration of `Interpolated`, on the zone of the rows `rf` to `rl` and of the columns `cf` to `cl`: a region of interest, or the full
images. -/
structure InterpolatedZone [IsStrictOrderedRing K] [FloorRing K] (w : World K) (user p mc inp l r f : Fields) (H W : Nat) (dRow dCol : Disp)
    (rf rl cf cl : Int) (sr sc : Nat) (invalid : F K) (n hw : Nat) (me : Measure) (ker : List (F K × F K) → F K) : Prop where
  input : user.get "input" = some (.obj inp)
  left : inp.get "left" = some (.obj l)
  right : inp.get "right" = some (.obj r)
  pipeline : user.get "pipeline" = some (.obj p)
  noEstimation : p.get "estimation" = none
  refinement : p.get "refinement" = some (.obj f)
  method : f.get "refinement_method" = some (.str "interpolation")
  cost : p.get "matching_cost" = some (.obj mc)
  matcher : MatcherIs w mc n me (Pandora.windowCost hw ker)
  asks : Asks w user H W dRow dCol rf rl cf cl sr sc invalid

end Verif.Spec
