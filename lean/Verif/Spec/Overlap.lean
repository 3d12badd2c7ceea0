import Verif.Spec.Symmetry

/-!
# Specification of the overlap of two frames of a scene, for disparities of fractions of pixels
-/

namespace Verif.Spec

open Verif Verif.MatchingCost Verif.ImgTools Verif.Disparity

variable {K : Type} [Field K] [LinearOrder K]

/-- The pixel `(a, b)` of a pair of images and the pixel `(a', b')` of another one see the same scene, with windows of half-size `hw` displaced
by `lr` to `hr` rows and by `lc` to `hc` columns: the left windows are inside both or outside both and hold the same, and each row, column and
value of the right images so reached is inside both or outside both and is the same. -/
structure SameScene (hw : Nat) (left right left' right' : Img K) (a b a' b' : Nat) (lr hr lc hc : Int) : Prop where
  noData : right'.noData = right.noData
  window : SameWindow hw left left' a b a' b'
  fits : (hw ≤ a ∧ a + hw < left.h ∧ hw ≤ b ∧ b + hw < left.w) ↔ (hw ≤ a' ∧ a' + hw < left'.h ∧ hw ≤ b' ∧ b' + hw < left'.w)
  rows : ∀ x : Int, lr - hw ≤ x → x ≤ hr + hw → ((0 ≤ a + x ∧ a + x < right.h) ↔ (0 ≤ a' + x ∧ a' + x < right'.h))
  cols : ∀ y : Int, lc - hw ≤ y → y ≤ hc + hw → ((0 ≤ b + y ∧ b + y < right.w) ↔ (0 ≤ b' + y ∧ b' + y < right'.w))
  values : ∀ x y : Int, lr - hw ≤ x → x ≤ hr + hw → lc - hw ≤ y → y ≤ hc + hw → 0 ≤ a + x → a + x < right.h → 0 ≤ b + y → b + y < right.w →
    right'.im (a' + x).toNat (b' + y).toNat = right.im (a + x).toNat (b + y).toNat

end Verif.Spec
