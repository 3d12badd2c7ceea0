import Verif.Spec.OwnRange

/-! # Specification of a translation between the two images -/

namespace Verif.Spec

open Verif Verif.ImgTools Verif.MatchingCost

variable {K : Type} [Field K] [LinearOrder K]

/-- The right image is the left image displaced by `dr` rows and `dc` columns, where both exist. -/
def Translated (left right : Img K) (dr dc : Int) : Prop :=
  ∀ a b a' b' : Nat, a < left.h → b < left.w → a' < right.h → b' < right.w → (a' : Int) = a + dr → (b' : Int) = b + dc →
    right.im a' b' = left.im a b

/-- The window of half-size `hw` centred on `(a, b)` is inside the left image and the displaced window is inside the right image. -/
def BothInside (hw : Nat) (left right : Img K) (dr dc : Int) (a b : Nat) : Prop :=
  (hw ≤ a ∧ a + hw < left.h ∧ hw ≤ b ∧ b + hw < left.w) ∧
  ((hw : Int) ≤ a + dr ∧ (a : Int) + dr + hw < right.h ∧ (hw : Int) ≤ b + dc ∧ (b : Int) + dc + hw < right.w)

/-- The pixels of the left window are finite numbers different from the no-data value, the mask declares no no-data and the centre is not
declared invalid. -/
def CleanWindow (hw : Nat) (left : Img K) (noData : F K) (a b : Nat) : Prop :=
  (∀ x y : Nat, a ≤ x + hw → x ≤ a + hw → b ≤ y + hw → y ≤ b + hw →
    (∃ k, left.im x y = .fin k) ∧ left.im x y ≠ noData ∧ Pandora.noDataAt left x y = false) ∧
  Pandora.invalidAt left a b = false

/-- A dissimilarity between windows: never negative, zero on equal windows, never `+inf`. -/
structure Dissimilarity (ker : List (F K × F K) → F K) : Prop where
  nonneg : ∀ l, F.lt (ker l) (.fin 0) = false
  zero : ∀ l, (∀ p ∈ l, ∃ k, p = (.fin k, .fin k)) → ker l = .fin 0
  noInf : ∀ l, ker l ≠ .pinf

/-- Sum over the pairs of a window, NaN if one of the values is not finite. -/
def sumOf (f : K → K → K) : List (F K × F K) → F K
  | [] => .fin 0
  | (.fin x, .fin y) :: l => F.add (.fin (f x y)) (sumOf f l)
  | _ :: _ => .nan

/-- Sum of absolute differences on finite values (method `sad`). -/
def sad : List (F K × F K) → F K := sumOf fun x y => |x - y|

/-- Sum of squared differences on finite values (method `ssd`). -/
def ssd : List (F K × F K) → F K := sumOf fun x y => (x - y) * (x - y)

end Verif.Spec
