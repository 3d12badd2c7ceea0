import Verif.Spec.Usable
import Verif.Spec.InterpMain
import Verif.Spec.Searched

/-!
# Specification of the pixels which receive refined disparities
-/

namespace Verif.Spec

open Verif Verif.Config Verif.ImgTools Verif.MatchingCost

variable {K : Type} [Field K] [LinearOrder K]

/-- A whole disparity of the interval of the pixel `(r, c)`, or before `first` or after `last`, at most three away. -/
def InWidened (d : Disp) (first last r c v : Int) : Prop :=
  (initAt d r c - d.range ≤ v ∧ v ≤ initAt d r c + d.range) ∨ ((v < first ∨ last < v) ∧ first - 3 ≤ v ∧ v ≤ last + 3)

/-- The pairs of whole disparities whose cost an interpolation reads for the pixel `(r, c)`, when the disparities of all the pixels are from `fr` to `lr`
and from `fc` to `lc`: the column disparities are moreover at most three away from the interval of the pixel. -/
def InterpReads (dRow dCol : Disp) (fr lr fc lc r c u v : Int) : Prop :=
  InWidened dRow fr lr r c u ∧ InWidened dCol fc lc r c v ∧ initAt dCol r c - dCol.range - 3 ≤ v ∧ v ≤ initAt dCol r c + dCol.range + 3

/-- What a pixel holds after an interpolation, when the pairs of disparities of `usable` are those whose windows can be compared: two numbers between
the ends of the axes when a pair is usable, NaN three times otherwise. -/
def InterpGiven (usable : Int → Int → Prop) (fr lr fc lc : Int) (row col score : F K) : Prop :=
  ((∃ u v, usable u v) → ∃ x y : K, row = .fin x ∧ col = .fin y ∧ (((fr - 3 : Int) : K) ≤ x ∧ x ≤ ((lr + 3 : Int) : K)) ∧
    ((fc - 3 : Int) : K) ≤ y ∧ y ≤ ((lc + 3 : Int) : K)) ∧
  ((∀ u v, ¬ usable u v) → row = .nan ∧ col = .nan ∧ score = .nan)

/-- What a pixel holds after a dichotomy: two numbers of its intervals when a pair of these is usable, otherwise two invalid disparities and no score. -/
def SearchGiven (usable : Int → Int → Prop) (dRow dCol : Disp) (r c : Int) (invalid row col score : F K) : Prop :=
  ((∃ u v, InIntervals dRow dCol r c u v ∧ usable u v) → ∃ x y : K, row = .fin x ∧ col = .fin y ∧
    (((initAt dRow r c - dRow.range : Int) : K) ≤ x ∧ x ≤ ((initAt dRow r c + dRow.range : Int) : K)) ∧
    ((initAt dCol r c - dCol.range : Int) : K) ≤ y ∧ y ≤ ((initAt dCol r c + dCol.range : Int) : K)) ∧
  ((∀ u v, InIntervals dRow dCol r c u v → ¬ usable u v) → row = invalid ∧ col = invalid ∧ score = .nan)

end Verif.Spec
