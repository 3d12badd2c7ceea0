import Verif.Spec.RefinedTiles
import Verif.Spec.Whole

/-!
# Specification of executions with a dichotomy on images whose axes are exchanged
-/

namespace Verif.Spec

open Verif Verif.Config Verif.MatchingCost Verif.ImgTools Verif.Disparity Verif.Main

variable {K : Type} [Field K] [LinearOrder K]

/-- The search from `(x, y)`, where the value is `v`, never has to choose between two moves: at each of its points, unless the nine values are the
same, one move only has the best value. -/
def NoTies (me : Measure) (val : K → K → F K) (it k : Nat) (x y : K) (v : F K) : Prop :=
  ∀ (j : Nat) (x' y' : K) (v' : F K) (s : Int × Int), k ≤ j → j < it → Path me val j k x y v x' y' v' →
    BestMove me val (1 / 2 ^ (j + 1)) x' y' v' s → (∃ t, Around t ∧ tried val (1 / 2 ^ (j + 1)) x' y' v' t ≠ v') →
    ∀ t, Around t → tried val (1 / 2 ^ (j + 1)) x' y' v' t = tried val (1 / 2 ^ (j + 1)) x' y' v' s → t = s

section
variable [IsStrictOrderedRing K] [FloorRing K]

/-- The cost of the windows displaced by whole pixels. -/
noncomputable def costAt (hw : Nat) (ker : List (F K × F K) → F K) (left right : Img K) (a b : Nat) (x y : K) : F K :=
  wholeCost hw ker left right a b ⌊x⌋ ⌊y⌋

/-- The search never has to choose at the pixel `(a, b)`, from any pair of whole disparities strictly inside its intervals. -/
def NeverChooses (me : Measure) (g : Kernel K) (it hw : Nat) (ker : List (F K × F K) → F K) (left right : Img K) (dRow dCol : Disp) (a b : Nat) :
    Prop :=
  ∀ fr lr fc lc, Extent dRow left fr lr → Extent dCol left fc lc → ∀ x y : Int,
    initAt dRow a b - dRow.range < x ∧ x < initAt dRow a b + dRow.range →
    initAt dCol a b - dCol.range < y ∧ y < initAt dCol a b + dCol.range →
    NoTies me (filtered g 1 (seen dRow dCol fr lr fc lc a b (costAt hw ker left right a b))) it 0 (x : K) (y : K) (costAt hw ker left right a b x y)

end

end Verif.Spec
