import Verif.Spec.Dichotomised
import Verif.Spec.Overlap
import Verif.Spec.Tiles

/-!
# Specification of frames and regions with a dichotomy
-/

namespace Verif.Spec

open Verif Verif.Config Verif.MatchingCost Verif.ImgTools Verif.Disparity Verif.Main

variable {K : Type} [Field K] [LinearOrder K]

/-- The intervals of the pixels of two images have the same first and last disparities. -/
def SameExtent (d d' : Disp) (img img' : Img K) : Prop :=
  ∀ first last first' last', Extent d img first last → Extent d' img' first' last' → first' = first ∧ last' = last

/-- The configuration of `Dichotomised`, on the zone of the rows `rf` to `rl` and of the columns `cf` to `cl`: a region of interest, or the full
images. -/
structure DichotomisedZone [IsStrictOrderedRing K] [FloorRing K] (w : World K) (user p mc inp l r f : Fields) (H W : Nat) (dRow dCol : Disp)
    (rf rl cf cl : Int) (invalid : F K) (n hw : Nat) (me : Measure) (ker : List (F K × F K) → F K) (it : Nat) (g : Kernel K) : Prop where
  input : user.get "input" = some (.obj inp)
  left : inp.get "left" = some (.obj l)
  right : inp.get "right" = some (.obj r)
  pipeline : user.get "pipeline" = some (.obj p)
  noEstimation : p.get "estimation" = none
  refinement : p.get "refinement" = some (.obj f)
  method : f.get "refinement_method" = some (.str "dichotomy")
  iterations : IterationsIs f it
  kernel : KernelIs w f it g
  cost : p.get "matching_cost" = some (.obj mc)
  matcher : MatcherIs w mc n me (Pandora.windowCost hw ker)
  asks : ∃ sr sc, Asks w user H W dRow dCol rf rl cf cl sr sc invalid

/-- The window of half-size `hw` centred on the row `r` and the column `c`, extended by `before` and `after` pixels, is inside the zone. -/
def InsideExtended (hw before after : Nat) (rowFirst rowLast colFirst colLast r c : Int) : Prop :=
  (rowFirst + hw + before ≤ r ∧ r + hw + after ≤ rowLast) ∧ (colFirst + hw + before ≤ c ∧ c + hw + after ≤ colLast)

end Verif.Spec
