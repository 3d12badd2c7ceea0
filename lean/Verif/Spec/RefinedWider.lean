import Verif.Spec.Dichotomised
import Verif.Spec.Wider
import Verif.Spec.RefinedTiles

/-!
# Specification of two executions with a dichotomy whose intervals of disparities are nested
-/

namespace Verif.Spec

open Verif Verif.MatchingCost Verif.ImgTools Verif.Disparity

variable {K : Type} [Field K] [LinearOrder K]

/-- All the pixels of an image of `H` rows and `W` columns have the same interval, as with an integer. -/
def UniformDisp (d : Disp) (H W : Nat) : Prop := ∀ a < H, ∀ b < W, ∀ a' < H, ∀ b' < W, initAt d (a : Int) (b : Int) = initAt d (a' : Int) (b' : Int)

section
variable [IsStrictOrderedRing K] [FloorRing K]

/-- The cost of a pair of disparities of the pixel `(a, b)`, whatever its intervals; `moved` gives the right image moved by a row disparity. -/
noncomputable def freeCost (hw : Nat) (ker : List (F K × F K) → F K) (left : Img K) (moved : K → Img K) (a b : Nat) (x y : K) : F K :=
  Pandora.windowCost hw ker left (moved x) ⟨left.h, left.w, fun _ _ => ⌊y⌋⟩ ⟨left.h, left.w, fun _ _ => ⌈y⌉⟩ a b y

/-- The pair `(x, y)` is one of the best pairs of the intervals of the pixel at row `r` and column `c`. -/
def IsBestPair (me : Measure) (dRow dCol : Disp) (n : Nat) (r c : Int) (cost : K → K → F K) (x y : K) : Prop :=
  AskedPair dRow dCol n r c x y ∧ cost x y ≠ .nan ∧
    ∀ x' y', AskedPair dRow dCol n r c x' y' → cost x' y' ≠ .nan → AtLeastAsGood me (cost x y) (cost x' y')

/-- The pair `(x, y)` is in the intervals of the pixel at row `r` and column `c`, and not at their ends. -/
def NotAtEnds (dRow dCol : Disp) (r c : Int) (x y : K) : Prop :=
  (((initAt dRow r c - dRow.range : Int) : K) < x ∧ x < ((initAt dRow r c + dRow.range : Int) : K)) ∧
  (((initAt dCol r c - dCol.range : Int) : K) < y ∧ y < ((initAt dCol r c + dCol.range : Int) : K))

end

end Verif.Spec
