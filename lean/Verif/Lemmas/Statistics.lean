import Verif.Model.Statistics
import Verif.Py.FloatLemmas
import Mathlib.Algebra.BigOperators.Group.List.Basic
import Mathlib.Data.List.Sort
import Mathlib.Tactic.LinearCombination

/-! # Lemmas about the statistics -/

set_option linter.unusedSectionVars false

namespace Verif.Statistics

open Verif Verif.OpticalFlow

variable {K : Type} [Field K] [LinearOrder K] [IsStrictOrderedRing K]

theorem isNaN_iff (v : F K) : v.isNaN = true ↔ v = .nan := by cases v <;> simp [F.isNaN]

theorem add_lcomm (a b c : F K) : F.add a (F.add b c) = F.add b (F.add a c) := by
  cases a <;> cases b <;> cases c <;> simp [F.add]; ring

theorem foldr_perm {l l' : List (F K)} (h : l.Perm l') : l.foldr F.add (.fin 0) = l'.foldr F.add (.fin 0) := by
  induction h with
  | nil => rfl
  | cons x _ ih => simp [ih]
  | swap x y l => simp [add_lcomm]
  | trans _ _ h1 h2 => exact h1.trans h2

theorem known_perm {l l' : List (F K)} (h : l.Perm l') : (known l).Perm (known l') := h.filter _

theorem le_trans' (a b c : F K) : F.le a b = true → F.le b c = true → F.le a c = true := by
  cases a <;> cases b <;> cases c <;> simp [F.le]
  exact _root_.le_trans

theorem le_antisymm' (a b : F K) : F.le a b = true → F.le b a = true → a = b := by
  cases a <;> cases b <;> simp [F.le]
  exact _root_.le_antisymm

theorem le_total' (a b : F K) (ha : a.isNaN = false) (hb : b.isNaN = false) : (F.le a b || F.le b a) = true := by
  cases a <;> cases b <;> simp_all [F.le, F.isNaN, le_total]

/-- Total order which puts NaN at the end. -/
def leLast (a b : F K) : Bool := F.le a b || b.isNaN

theorem sort_known (l : List (F K)) : (known l).mergeSort F.le = (known l).mergeSort leLast := by
  have h := List.map_mergeSort (l := known l) (r := leLast) (s := F.le) (f := id) (by
    intro a _ b hb
    have : b.isNaN = false := by
      have := (List.mem_filter.1 hb).2
      simpa using this
    simp [leLast, this])
  simpa using h.symm

theorem leLast_trans (a b c : F K) : leLast a b = true → leLast b c = true → leLast a c = true := by
  cases a <;> cases b <;> cases c <;> simp [leLast, F.le, F.isNaN]
  exact _root_.le_trans

theorem leLast_total (a b : F K) : (leLast a b || leLast b a) = true := by
  cases a <;> cases b <;> simp [leLast, F.le, F.isNaN, le_total]

theorem leLast_antisymm (a b : F K) : leLast a b = true → leLast b a = true → a = b := by
  cases a <;> cases b <;> simp [leLast, F.le, F.isNaN]
  exact _root_.le_antisymm

theorem sort_perm {l l' : List (F K)} (h : l.Perm l') : (known l).mergeSort F.le = (known l').mergeSort F.le := by
  rw [sort_known, sort_known]
  refine List.Perm.eq_of_pairwise (le := fun a b => leLast a b = true) ?_ (List.pairwise_mergeSort leLast_trans leLast_total _)
    (List.pairwise_mergeSort leLast_trans leLast_total _) ?_
  · intro a b _ _
    exact leLast_antisymm a b
  · exact ((List.mergeSort_perm _ _).trans (known_perm h)).trans (List.mergeSort_perm _ _).symm

theorem nanMean_perm {l l' : List (F K)} (h : l.Perm l') : nanMean l = nanMean l' := by
  unfold nanMean fsum
  rw [foldr_perm (known_perm h), (known_perm h).length_eq]

theorem nanStd_perm (sqrt : F K → F K) {l l' : List (F K)} (h : l.Perm l') : nanStd sqrt l = nanStd sqrt l' := by
  unfold nanStd
  rw [(known_perm h).length_eq, nanMean_perm h]
  simp only
  rw [foldr_perm ((known_perm h).map _)]

theorem nanQuantile_perm {l l' : List (F K)} (h : l.Perm l') (p : Nat) : nanQuantile l p = nanQuantile l' p := by
  unfold nanQuantile
  rw [sort_perm h]

theorem foldr_fin (xs : List K) : (xs.map F.fin).foldr F.add (.fin 0) = .fin xs.sum := by
  induction xs with
  | nil => rfl
  | cons x xs ih => simp [ih, F.add]

theorem sort_fin (xs : List K) : (xs.map F.fin).mergeSort F.le = (xs.mergeSort fun a b => decide (a ≤ b)).map F.fin := by
  refine (List.map_mergeSort ?_).symm
  intro a _ b _
  rfl

theorem sorted_le (xs : List K) : (xs.mergeSort fun a b => decide (a ≤ b)).Pairwise (· ≤ ·) := by
  have := List.pairwise_mergeSort (le := fun a b : K => decide (a ≤ b))
    (fun a b c => by simpa using _root_.le_trans) (fun a b => by simpa using le_total a b) xs
  simpa using this

end Verif.Statistics
