import Verif.Py.Float

/-! Lemmas about float comparisons and about `np.max`, `np.argmax`, … -/

namespace Verif
namespace F
variable {K : Type} [LinearOrder K]

@[simp] theorem lt_irrefl (a : F K) : F.lt a a = false := by cases a <;> simp [F.lt]

theorem lt_trans {a b c : F K} (h : F.lt a b = true) (h' : F.lt b c = true) : F.lt a c = true := by
  cases a <;> cases b <;> cases c <;> simp_all [F.lt]
  exact _root_.lt_trans h h'

theorem lt_asymm {a b : F K} (h : F.lt a b = true) : F.lt b a = false := by
  cases a <;> cases b <;> simp_all [F.lt]
  exact le_of_lt h

theorem lt_total {a b : F K} (ha : a.isNaN = false) (hb : b.isNaN = false)
    (h : F.lt a b = false) (h' : F.lt b a = false) : a = b := by
  cases a <;> cases b <;> simp_all [F.lt, F.isNaN]
  exact le_antisymm h' h

theorem not_lt_trans {a b c : F K} (hb : b.isNaN = false)
    (h : F.lt b a = false) (h' : F.lt c b = false) : F.lt c a = false := by
  cases a <;> cases b <;> cases c <;> simp_all [F.lt, F.isNaN]
  exact le_trans h h'

theorem le_iff_not_lt {a b : F K} (ha : a.isNaN = false) (hb : b.isNaN = false) :
    F.le a b = !F.lt b a := by
  cases a <;> cases b <;> simp_all [F.lt, F.le, F.isNaN]
  rename_i a b
  by_cases h : a ≤ b
  · simp [h, not_lt.2 h]
  · simp [h, not_le.1 h]

theorem le_iff {a b : F K} : F.le a b = true ↔ F.lt a b = true ∨ (a = b ∧ a.isNaN = false) := by
  cases a <;> cases b <;> simp [F.lt, F.le, F.isNaN]
  exact le_iff_lt_or_eq

theorem eq_iff {a b : F K} : F.eq a b = true ↔ a = b ∧ a.isNaN = false := by
  cases a <;> cases b <;> simp [F.eq, F.isNaN]

end F

namespace Measure
variable {K : Type} [LinearOrder K] (m : Measure)

@[simp] theorem better_irrefl (a : F K) : m.better a a = false := by cases m <;> simp [better]

theorem better_trans {a b c : F K} (h : m.better a b = true) (h' : m.better b c = true) :
    m.better a c = true := by
  cases m <;> simp only [better] at *
  · exact F.lt_trans h' h
  · exact F.lt_trans h h'

theorem better_asymm {a b : F K} (h : m.better a b = true) : m.better b a = false := by
  cases m <;> exact F.lt_asymm h

theorem better_total {a b : F K} (ha : a.isNaN = false) (hb : b.isNaN = false)
    (h : m.better a b = false) (h' : m.better b a = false) : a = b := by
  cases m <;> simp only [better] at *
  · exact F.lt_total ha hb h' h
  · exact F.lt_total ha hb h h'

theorem not_better_trans {a b c : F K} (hb : b.isNaN = false)
    (h : m.better a b = false) (h' : m.better b c = false) : m.better a c = false := by
  cases m <;> simp only [better] at *
  · exact F.not_lt_trans hb h h'
  · exact F.not_lt_trans hb h' h

theorem better_nan_left (a : F K) : m.better .nan a = false := by
  cases m <;> cases a <;> rfl

theorem better_nan_right (a : F K) : m.better a .nan = false := by
  cases m <;> cases a <;> rfl

theorem not_nan_of_better {a b : F K} (h : m.better a b = true) : a.isNaN = false ∧ b.isNaN = false := by
  constructor
  · cases a <;> first | rfl | (rw [better_nan_left] at h; cases h)
  · cases b <;> first | rfl | (rw [better_nan_right] at h; cases h)

omit [LinearOrder K] in
theorem worst_not_nan : (m.worst : F K).isNaN = false := by cases m <;> rfl

theorem worst_not_better (a : F K) : m.better m.worst a = false := by
  cases m <;> cases a <;> rfl

theorem better_worst_of_ne {a : F K} (ha : a.isNaN = false) (h : a ≠ m.worst) : m.better a m.worst = true := by
  cases m <;> cases a <;> simp_all [better, worst, F.lt, F.isNaN]

/-! ### `np.max` / `np.min` -/

theorem foldl_pick (l : List (F K)) (x : F K) (hx : x.isNaN = false) (hl : ∀ y ∈ l, y.isNaN = false) :
    (l.foldl m.pick x = x ∨ l.foldl m.pick x ∈ l) ∧ (l.foldl m.pick x).isNaN = false ∧
      m.better x (l.foldl m.pick x) = false ∧ ∀ y ∈ l, m.better y (l.foldl m.pick x) = false := by
  induction l generalizing x with
  | nil => simp [hx]
  | cons a l ih =>
    have ha : a.isNaN = false := hl a (by simp)
    have hl' : ∀ y ∈ l, y.isNaN = false := fun y hy => hl y (by simp [hy])
    simp only [List.foldl_cons]
    by_cases hb : m.better a x = true
    · have hp : m.pick x a = a := by simp [pick, hx, ha, hb]
      rw [hp]
      obtain ⟨h1, h2, h3, h4⟩ := ih a ha hl'
      refine ⟨Or.inr ?_, h2, ?_, ?_⟩
      · rcases h1 with h1 | h1
        · rw [h1]; simp
        · simp [h1]
      · exact m.not_better_trans ha (m.better_asymm hb) h3
      · intro y hy
        rcases List.mem_cons.1 hy with rfl | hy
        · exact h3
        · exact h4 y hy
    · have hb' : m.better a x = false := by simpa using hb
      have hp : m.pick x a = x := by simp [pick, hx, ha, hb']
      rw [hp]
      obtain ⟨h1, h2, h3, h4⟩ := ih x hx hl'
      refine ⟨?_, h2, h3, ?_⟩
      · rcases h1 with h1 | h1
        · exact Or.inl h1
        · exact Or.inr (by simp [h1])
      · intro y hy
        rcases List.mem_cons.1 hy with rfl | hy
        · exact m.not_better_trans hx hb' h3
        · exact h4 y hy

theorem ext_spec (l : List (F K)) (hne : l ≠ []) (hl : ∀ y ∈ l, y.isNaN = false) :
    m.ext l ∈ l ∧ ∀ y ∈ l, m.better y (m.ext l) = false := by
  cases l with
  | nil => exact absurd rfl hne
  | cons a l =>
    obtain ⟨h1, _, h3, h4⟩ := m.foldl_pick l a (hl a (by simp)) (fun y hy => hl y (by simp [hy]))
    refine ⟨?_, ?_⟩
    · rcases h1 with h1 | h1
      · simp [ext, h1]
      · simp [ext, h1]
    · intro y hy
      rcases List.mem_cons.1 hy with rfl | hy
      · exact h3
      · exact h4 y hy

/-! ### `np.argmax` / `np.argmin` -/

theorem argGo_spec (f : Nat → F K) (n : Nat) (hf : ∀ i < n, (f i).isNaN = false) :
    ∀ (k bi i : Nat), i + k = n → bi < i →
      (∀ j < i, m.better (f j) (f bi) = false) → (∀ j < bi, m.better (f bi) (f j) = true) →
      let r := m.argGo (f bi) bi i ((List.range' i k).map f)
      r < n ∧ (∀ j < n, m.better (f j) (f r) = false) ∧ (∀ j < r, m.better (f r) (f j) = true) := by
  intro k
  induction k with
  | zero =>
    intro bi i hi hbi h1 h2
    simp only [List.range'_zero, List.map_nil, argGo]
    subst hi
    exact ⟨by omega, by simpa using h1, h2⟩
  | succ k ih =>
    intro bi i hi hbi h1 h2
    simp only [List.range'_succ, List.map_cons, argGo]
    rw [hf bi (by omega), hf i (by omega)]
    simp only [Bool.false_eq_true, if_false, Bool.false_or]
    by_cases hb : m.better (f i) (f bi) = true
    · rw [if_pos hb]
      apply ih i (i + 1) (by omega) (by omega)
      · intro j hj
        rcases Nat.lt_succ_iff_lt_or_eq.1 hj with hj | rfl
        · exact m.not_better_trans (hf bi (by omega)) (h1 j hj) (m.better_asymm hb)
        · simp
      · intro j hj
        have hnb := h1 j hj
        by_contra hc
        have hc' : m.better (f i) (f j) = false := by simpa using hc
        have := m.not_better_trans (hf j (by omega)) hc' hnb
        rw [hb] at this; cases this
    · rw [if_neg hb]
      apply ih bi (i + 1) (by omega) (by omega) _ h2
      intro j hj
      rcases Nat.lt_succ_iff_lt_or_eq.1 hj with hj | rfl
      · exact h1 j hj
      · simpa using hb

/-- `np.argmax` on a sequence without NaN: first index of a best value. -/
theorem arg_spec (f : Nat → F K) (n : Nat) (hn : 0 < n) (hf : ∀ i < n, (f i).isNaN = false) :
    let r := m.arg ((List.range n).map f)
    r < n ∧ (∀ j < n, m.better (f j) (f r) = false) ∧ (∀ j < r, m.better (f r) (f j) = true) := by
  obtain ⟨k, rfl⟩ : ∃ k, n = k + 1 := ⟨n - 1, by omega⟩
  have : (List.range (k + 1)).map f = f 0 :: (List.range' 1 k).map f := by
    rw [List.range_eq_range', List.range'_succ, List.map_cons]
  rw [this]
  simp only [arg]
  apply m.argGo_spec f (k + 1) hf k 0 1 (by omega) (by omega)
  · intro j hj
    have : j = 0 := by omega
    subst this; simp
  · intro j hj; omega

theorem ext_map_spec (f : Nat → F K) (n : Nat) (hn : 0 < n) (hf : ∀ i < n, (f i).isNaN = false) :
    (∃ i < n, m.ext ((List.range n).map f) = f i) ∧
      ∀ i < n, m.better (f i) (m.ext ((List.range n).map f)) = false := by
  have h := m.ext_spec ((List.range n).map f) (by simp; omega)
    (by intro y hy; obtain ⟨i, hi, rfl⟩ := List.mem_map.1 hy; exact hf i (by simpa using hi))
  refine ⟨?_, ?_⟩
  · obtain ⟨i, hi, h'⟩ := List.mem_map.1 h.1
    exact ⟨i, by simpa using hi, h'.symm⟩
  · intro i hi
    exact h.2 (f i) (List.mem_map.2 ⟨i, by simpa using hi, rfl⟩)

end Measure
end Verif
