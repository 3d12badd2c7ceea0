import Verif.Model.ImgTools
import Mathlib.Tactic.Linarith
import Mathlib.Tactic.FieldSimp

/-! Lemmas on `img_tools`. -/

namespace Verif.ImgTools
open Verif

theorem foldl_min_le (l : List Int) (a : Int) : l.foldl min a ≤ a ∧ ∀ x ∈ l, l.foldl min a ≤ x := by
  induction l generalizing a with
  | nil => simp
  | cons y l ih =>
    obtain ⟨h1, h2⟩ := ih (min a y)
    simp only [List.foldl_cons]
    refine ⟨by omega, fun x hx => ?_⟩
    rcases List.mem_cons.1 hx with rfl | hx
    · omega
    · exact h2 x hx

theorem foldl_min_mem (l : List Int) (a : Int) : l.foldl min a = a ∨ l.foldl min a ∈ l := by
  induction l generalizing a with
  | nil => simp
  | cons y l ih =>
    simp only [List.foldl_cons]
    rcases ih (min a y) with h | h
    · rcases le_total a y with h' | h'
      · left; rw [h]; omega
      · right; rw [h]; simp [h']
    · right; simp [h]

theorem foldl_max_ge (l : List Int) (a : Int) : a ≤ l.foldl max a ∧ ∀ x ∈ l, x ≤ l.foldl max a := by
  induction l generalizing a with
  | nil => simp
  | cons y l ih =>
    obtain ⟨h1, h2⟩ := ih (max a y)
    simp only [List.foldl_cons]
    refine ⟨by omega, fun x hx => ?_⟩
    rcases List.mem_cons.1 hx with rfl | hx
    · omega
    · exact h2 x hx

theorem foldl_max_mem (l : List Int) (a : Int) : l.foldl max a = a ∨ l.foldl max a ∈ l := by
  induction l generalizing a with
  | nil => simp
  | cons y l ih =>
    simp only [List.foldl_cons]
    rcases ih (max a y) with h | h
    · rcases le_total y a with h' | h'
      · left; rw [h]; omega
      · right; rw [h]; simp [h']
    · right; simp [h]

theorem minOf_le {l : List Int} {x : Int} (h : x ∈ l) : minOf l ≤ x := by
  cases l with
  | nil => simp at h
  | cons y l =>
    obtain ⟨h1, h2⟩ := foldl_min_le l y
    rcases List.mem_cons.1 h with rfl | h
    · exact h1
    · exact h2 x h

theorem minOf_mem {l : List Int} (h : l ≠ []) : minOf l ∈ l := by
  cases l with
  | nil => simp at h
  | cons y l =>
    rcases foldl_min_mem l y with h | h
    · simp [minOf, h]
    · exact List.mem_cons_of_mem _ h

theorem le_maxOf {l : List Int} {x : Int} (h : x ∈ l) : x ≤ maxOf l := by
  cases l with
  | nil => simp at h
  | cons y l =>
    obtain ⟨h1, h2⟩ := foldl_max_ge l y
    rcases List.mem_cons.1 h with rfl | h
    · exact h1
    · exact h2 x h

theorem maxOf_mem {l : List Int} (h : l ≠ []) : maxOf l ∈ l := by
  cases l with
  | nil => simp at h
  | cons y l =>
    rcases foldl_max_mem l y with h | h
    · simp [maxOf, h]
    · exact List.mem_cons_of_mem _ h

theorem mem_gridVals {g : Arr2 Int} {x : Int} : x ∈ gridVals g ↔ ∃ r < g.h, ∃ c < g.w, g.get r c = x := by
  simp [gridVals]

theorem gridVals_ne_nil {g : Arr2 Int} (h : 0 < g.h) (w : 0 < g.w) : gridVals g ≠ [] := by
  have : g.get 0 0 ∈ gridVals g := mem_gridVals.2 ⟨0, h, 0, w, rfl⟩
  intro e
  simp [e] at this

theorem minOf_unique {l : List Int} {m : Int} (h : m ∈ l) (h' : ∀ x ∈ l, m ≤ x) : minOf l = m :=
  le_antisymm (minOf_le h) (h' _ (minOf_mem (List.ne_nil_of_mem h)))

theorem maxOf_unique {l : List Int} {m : Int} (h : m ∈ l) (h' : ∀ x ∈ l, x ≤ m) : maxOf l = m :=
  le_antisymm (h' _ (maxOf_mem (List.ne_nil_of_mem h))) (le_maxOf h)

/-- Slices with in-range bounds. -/
theorem sliceStart_of_nonneg {n : Nat} {lo : Int} (h0 : 0 ≤ lo) (h1 : lo ≤ n) : sliceStart n lo = lo.toNat := by
  unfold sliceStart clampIdx
  rw [if_neg (by omega)]
  omega

theorem sliceLen_of_nonneg {n : Nat} {lo hi : Int} (h0 : 0 ≤ lo) (h1 : lo ≤ hi) (h2 : hi ≤ n) :
    sliceLen n lo hi = (hi - lo).toNat := by
  unfold sliceLen clampIdx
  rw [if_neg (by omega), if_neg (by omega)]
  omega

/-- The zoomed image provides `h - 1` rows for every fractional index. -/
theorem zoomCount_eq {h s ind : Nat} (hh : 0 < h) (hi : 0 < ind) (hs : ind < s) : zoomCount h s ind = h - 1 := by
  unfold zoomCount
  obtain ⟨k, rfl⟩ : ∃ k, h = k + 1 := ⟨h - 1, by omega⟩
  have e : (k + 1) * s - (s - 1) - ind + (s - 1) = (s - ind) + k * s ∨
      ((k + 1) * s - (s - 1) - ind + (s - 1) = s - 1 ∧ k = 0) := by
    rcases Nat.eq_zero_or_pos k with rfl | hk
    · right
      refine ⟨?_, rfl⟩
      rw [Nat.zero_add, Nat.one_mul]; omega
    · left
      have : s ≤ k * s := Nat.le_mul_of_pos_left s hk
      rw [Nat.add_mul, Nat.one_mul]
      omega
  rcases e with e | ⟨e, rfl⟩
  · rw [e, Nat.add_mul_div_right _ _ (by omega), Nat.div_eq_of_lt (by omega)]; omega
  · rw [e, Nat.div_eq_of_lt (by omega)]

theorem filter_range (n lo hi : Nat) (hlo : lo ≤ hi) (hhi : hi ≤ n) :
    (List.range n).filter (fun k => decide (lo ≤ k ∧ k < hi)) = (List.range (hi - lo)).map (lo + ·) := by
  induction n generalizing hi with
  | zero =>
    obtain rfl : hi = 0 := by omega
    simp
  | succ n ih =>
    rw [List.range_succ, List.filter_append]
    rcases Nat.lt_or_ge n hi with h | h
    · obtain rfl : hi = n + 1 := by omega
      rcases Nat.lt_or_ge n lo with h2 | h2
      · obtain rfl : lo = n + 1 := by omega
        simp
      · have e : (List.range n).filter (fun k => decide (lo ≤ k ∧ k < n + 1)) =
            (List.range n).filter (fun k => decide (lo ≤ k ∧ k < n)) := by
          apply List.filter_congr
          intro x hx
          rw [List.mem_range] at hx
          simp only [decide_eq_decide]
          omega
        rw [e, ih n h2 (le_refl _)]
        have : n + 1 - lo = (n - lo) + 1 := by omega
        rw [this, List.range_succ, List.map_append]
        simp [h2]
    · rw [ih hi hlo h]
      have : ¬ (lo ≤ n ∧ n < hi) := by omega
      simp [this]

/-- A slice whose indices are exactly those of the elements satisfying `P` is the sub-list of these elements. -/
theorem slice_toList_filter {α : Type} (a : Arr1 α) (lo hi : Int) (P : α → Bool)
    (h : ∀ k < a.n, P (a.get k) = true ↔ clampIdx a.n lo ≤ k ∧ k < clampIdx a.n hi) :
    (a.slice lo hi).toList = a.toList.filter P := by
  unfold Arr1.toList Arr1.slice sliceLen sliceStart
  simp only
  rw [List.filter_map]
  have hclamp : clampIdx a.n hi ≤ a.n := by unfold clampIdx; split <;> omega
  have e : (List.range a.n).filter (P ∘ a.get) =
      (List.range a.n).filter (fun k => decide (clampIdx a.n lo ≤ k ∧ k < clampIdx a.n hi)) := by
    apply List.filter_congr
    intro k hk
    rw [List.mem_range] at hk
    rw [Bool.eq_iff_iff, decide_eq_true_eq]
    exact h k hk
  rw [e]
  rcases Nat.le_total (clampIdx a.n lo) (clampIdx a.n hi) with h' | h'
  · rw [filter_range _ _ _ h' hclamp, List.map_map]
    rfl
  · have : clampIdx a.n hi - clampIdx a.n lo = 0 := by omega
    rw [this]
    symm
    simp only [List.range_zero, List.map_nil, List.map_eq_nil_iff, List.filter_eq_nil_iff, decide_eq_true_eq]
    intro k _
    omega

end Verif.ImgTools
