import Verif.Spec.Winner
import Verif.Spec.Agreement

/-!
# Specification of the pixels which receive a disparity
-/

namespace Verif.Spec

open Verif Verif.ImgTools Verif.MatchingCost

variable {K : Type} [Field K] [LinearOrder K]

/-- The windows of half-size `hw` centred on `(a, b)` of the left image and on `(a + dr, b + dc)` of the right image can be compared: they
are inside their image, the mask of the left image flags no no-data in the first and does not declare its centre invalid, and no value of
the second is the no-data value. -/
structure Comparable (hw : Nat) (left right : Img K) (a b : Nat) (dr dc : Int) : Prop where
  inside : BothInside hw left right dr dc a b
  flags : ∀ x y : Nat, a ≤ x + hw → x ≤ a + hw → b ≤ y + hw → y ≤ b + hw → Pandora.noDataAt left x y = false
  centre : Pandora.invalidAt left a b = false
  values : ∀ x y : Nat, (a : Int) + dr ≤ x + hw → (x : Int) ≤ a + dr + hw → (b : Int) + dc ≤ y + hw → (y : Int) ≤ b + dc + hw →
    right.im x y ≠ right.noData

/-- Moreover the mask of the right image declares valid the pixel `(a + dr, b + dc)`. -/
def RightValid (right : Img K) (a b : Nat) (dr dc : Int) : Prop :=
  ∀ x y : Nat, (x : Int) = a + dr → (y : Int) = b + dc → Pandora.invalidAt right x y = false

/-- What a pixel of the rasters holds when the pairs of disparities of `usable` are those whose windows can be compared. -/
def GivenExactly (usable : Int → Int → Prop) (dRow dCol : Disp) (r c : Int) (invalid row col score : F K) : Prop :=
  ((∃ dr dc, InIntervals dRow dCol r c dr dc ∧ usable dr dc) →
    ∃ dr dc : Int, InIntervals dRow dCol r c dr dc ∧ row = .fin (dr : K) ∧ col = .fin (dc : K) ∧ score ≠ .nan) ∧
  ((∀ dr dc, InIntervals dRow dCol r c dr dc → ¬ usable dr dc) → row = invalid ∧ col = invalid ∧ score = invalid)

end Verif.Spec
