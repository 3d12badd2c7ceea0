import Verif.Spec.Translation

/-! # Specification of the zero-mean normalised cross-correlation (method `zncc`) -/

namespace Verif.Spec

open Verif

variable {K : Type} [Field K] [LinearOrder K]

/-- The finite pairs of a window, none if one of the values is not finite. -/
def finitePairs : List (F K × F K) → Option (List (K × K))
  | [] => some []
  | (.fin x, .fin y) :: l => (finitePairs l).map fun l => (x, y) :: l
  | _ :: _ => none

/-- Mean of a function over the pairs of a window. -/
def meanOf (f : K × K → K) (l : List (K × K)) : K := (l.map f).sum / (l.length : K)

/-- Zero-mean normalised cross-correlation: covariance divided by the two standard deviations, zero if one of them is zero. -/
def znccOf (sqrt : K → K) (l : List (K × K)) : K :=
  let s := sqrt (meanOf (fun p => p.1 * p.1) l - meanOf Prod.fst l * meanOf Prod.fst l) *
    sqrt (meanOf (fun p => p.2 * p.2) l - meanOf Prod.snd l * meanOf Prod.snd l)
  if s = 0 then 0 else (meanOf (fun p => p.1 * p.2) l - meanOf Prod.fst l * meanOf Prod.snd l) / s

/-- The measure on a window with special values. -/
def zncc (sqrt : K → K) (l : List (F K × F K)) : F K :=
  match finitePairs l with
  | some l => .fin (znccOf sqrt l)
  | none => .nan

/-- What is assumed of the square root. -/
def SqrtContract (sqrt : K → K) : Prop := ∀ x, 0 ≤ x → 0 ≤ sqrt x ∧ sqrt x * sqrt x = x

/-- A similarity between windows: never above one, one on equal windows which are not constant, never `-inf`. -/
structure Similarity (ker : List (F K × F K) → F K) : Prop where
  le_one : ∀ l, F.lt (.fin 1) (ker l) = false
  one : ∀ l, (∀ p ∈ l, ∃ k, p = (.fin k, .fin k)) → (∃ p ∈ l, ∃ q ∈ l, p ≠ q) → ker l = .fin 1
  noInf : ∀ l, ker l ≠ .ninf

/-- The left window has two different values. -/
def Textured (hw : Nat) (left : ImgTools.Img K) (a b : Nat) : Prop :=
  ∃ x y x' y' : Nat, (a ≤ x + hw ∧ x ≤ a + hw ∧ b ≤ y + hw ∧ y ≤ b + hw) ∧ (a ≤ x' + hw ∧ x' ≤ a + hw ∧ b ≤ y' + hw ∧ y' ≤ b + hw) ∧
    left.im x y ≠ left.im x' y'

end Verif.Spec
