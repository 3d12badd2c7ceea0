import Verif.Spec.RoiRasters
import Verif.Spec.Values

/-!
# Two regions of interest of the same images
-/

namespace Verif.Spec

open Verif Verif.Config Verif.ImgTools Verif.MatchingCost Verif.Disparity Verif.Main

variable {K : Type} [Field K] [LinearOrder K]

/-- What is assumed from Pandora's reading: an image of which a region can be read can be read in whole. -/
def WholeReadable (w : World K) : Prop :=
  ∀ v R crop, w.files.read v (some R) = .ok crop → ∃ full, w.files.read v none = .ok full

/-- The window of half-size `hw` centred on the row `r` and the column `c` is inside the region. -/
def InsideRegion (hw : Nat) (rowFirst rowLast colFirst colLast r c : Int) : Prop :=
  (rowFirst + hw ≤ r ∧ r + hw ≤ rowLast) ∧ (colFirst + hw ≤ c ∧ c + hw ≤ colLast)

end Verif.Spec
