import Verif.Spec.RefinedSymmetry
import Verif.Spec.FlowSymmetry

/-!
# Specification of executions with a dichotomy on mirrored images
-/

namespace Verif.Spec

open Verif Verif.Config Verif.MatchingCost Verif.ImgTools Verif.Disparity Verif.Main

variable {K : Type} [Field K] [LinearOrder K] [IsStrictOrderedRing K] [FloorRing K]

/-- The costs read for the pixel `(a, b)` in its intervals extended by one pixel at each end are numbers. -/
def NumbersAround (hw : Nat) (ker : List (F K × F K) → F K) (left right : Img K) (dRow dCol : Disp) (a b : Nat) : Prop :=
  ∀ fr lr fc lc, Extent dRow left fr lr → Extent dCol left fc lc → ∀ x y : Int,
    initAt dRow a b - dRow.range - 1 ≤ x ∧ x ≤ initAt dRow a b + dRow.range + 1 →
    initAt dCol a b - dCol.range - 1 ≤ y ∧ y ≤ initAt dCol a b + dCol.range + 1 →
    seen dRow dCol fr lr fc lc a b (costAt hw ker left right a b) (x : K) (y : K) ≠ .nan

/-- One pair of disparities of the intervals of the pixel `(a, b)` is better than all the others. -/
def SoleBest (me : Measure) (hw : Nat) (ker : List (F K × F K) → F K) (left right : Img K) (dRow dCol : Disp) (a b : Nat) : Prop :=
  ∃ x y : Int, InIntervals dRow dCol a b x y ∧ ∀ x' y' : Int, InIntervals dRow dCol a b x' y' →
    AtLeastAsGood me (wholeCost hw ker left right a b x' y') (wholeCost hw ker left right a b x y) → x' = x ∧ y' = y

/-- The invalid value is not a disparity of the intervals of the pixel `(a, b)`, nor the opposite of one. -/
def InvalidApart (invalid : F K) (d : Disp) (a b : Nat) : Prop :=
  ∀ x : Int, initAt d a b - d.range ≤ x → x ≤ initAt d a b + d.range → invalid ≠ .fin ((x : Int) : K) ∧ invalid ≠ .fin ((-x : Int) : K)

end Verif.Spec
