import Verif.Model.Common

/-! Lemmas on the disparity range masking. -/

namespace Verif.Common
open Verif
variable {K : Type} [LinearOrder K] {α : Type}

theorem mem_cells (h w r c : Nat) : (r, c) ∈ cells h w ↔ r < h ∧ c < w := by
  simp [cells]

theorem mem_masking (d : K) (gmin gmax : Arr2 K) (g : Option (K × K)) (r c : Nat) :
    (r, c) ∈ masking d gmin gmax g ↔
      (r < gmin.h ∧ c < gmin.w) ∧ outMask d (gmin.get r c) (gmax.get r c) g = true := by
  simp [masking, List.mem_filter, mem_cells]

/-- Generic loop: a fold of guarded steps over `range n`. -/
theorem setOutOfRow_go (dispRow : Arr1 K) (gmin gmax : Arr2 K) (value : α) (g : Option (K × K)) (n : Nat) :
    ∀ (data : Arr4 α),
    (∀ j < n, ∀ p ∈ masking (dispRow.get j) gmin gmax g, p.1 < data.n0 ∧ p.2 < data.n1) →
    ∃ d', (List.range n).foldlM (setRowStep dispRow gmin gmax value g) data = .ok d' ∧
      (d'.n0 = data.n0 ∧ d'.n1 = data.n1 ∧ d'.n2 = data.n2 ∧ d'.n3 = data.n3) ∧
      ∀ r c i j, d'.get r c i j =
        if j < n ∧ (r, c) ∈ masking (dispRow.get j) gmin gmax g then value else data.get r c i j := by
  induction n with
  | zero =>
    intro data _
    exact ⟨data, rfl, ⟨rfl, rfl, rfl, rfl⟩, fun r c i j => by simp⟩
  | succ n ih =>
    intro data hok
    obtain ⟨d1, h1, ⟨e0, e1, e2, e3⟩, hg⟩ := ih data (fun j hj => hok j (by omega))
    rw [List.range_succ, List.foldlM_append, h1]
    simp only [bind, Except.bind, List.foldlM_cons, List.foldlM_nil]
    have hall : ((masking (dispRow.get n) gmin gmax g).all
        fun p => decide (p.1 < d1.n0) && decide (p.2 < d1.n1)) = true := by
      rw [List.all_eq_true]
      intro p hp
      have := hok n (by omega) p hp
      simp [e0, e1, this.1, this.2]
    unfold setRowStep
    simp only [hall, if_true, pure, Except.pure]
    refine ⟨_, rfl, ⟨e0, e1, e2, e3⟩, ?_⟩
    intro r c i j
    simp only
    rw [hg r c i j]
    by_cases hj : j = n
    · subst hj
      by_cases hm : (r, c) ∈ masking (dispRow.get j) gmin gmax g
      · rw [if_pos ⟨rfl, hm⟩, if_pos ⟨by omega, hm⟩]
      · rw [if_neg (fun h => hm h.2), if_neg (fun h => hm h.2), if_neg (fun h => hm h.2)]
    · rw [if_neg (fun h => hj h.1)]
      by_cases hm : j < n ∧ (r, c) ∈ masking (dispRow.get j) gmin gmax g
      · rw [if_pos hm, if_pos ⟨by omega, hm.2⟩]
      · rw [if_neg hm, if_neg (fun h => hm ⟨by omega, h.2⟩)]

theorem setOutOfCol_go (dispCol : Arr1 K) (gmin gmax : Arr2 K) (value : α) (g : Option (K × K)) (n : Nat) :
    ∀ (data : Arr4 α),
    (∀ i < n, ∀ p ∈ masking (dispCol.get i) gmin gmax g, p.1 < data.n0 ∧ p.2 < data.n1) →
    ∃ d', (List.range n).foldlM (setColStep dispCol gmin gmax value g) data = .ok d' ∧
      (d'.n0 = data.n0 ∧ d'.n1 = data.n1 ∧ d'.n2 = data.n2 ∧ d'.n3 = data.n3) ∧
      ∀ r c i j, d'.get r c i j =
        if i < n ∧ (r, c) ∈ masking (dispCol.get i) gmin gmax g then value else data.get r c i j := by
  induction n with
  | zero =>
    intro data _
    exact ⟨data, rfl, ⟨rfl, rfl, rfl, rfl⟩, fun r c i j => by simp⟩
  | succ n ih =>
    intro data hok
    obtain ⟨d1, h1, ⟨e0, e1, e2, e3⟩, hg⟩ := ih data (fun j hj => hok j (by omega))
    rw [List.range_succ, List.foldlM_append, h1]
    simp only [bind, Except.bind, List.foldlM_cons, List.foldlM_nil]
    have hall : ((masking (dispCol.get n) gmin gmax g).all
        fun p => decide (p.1 < d1.n0) && decide (p.2 < d1.n1)) = true := by
      rw [List.all_eq_true]
      intro p hp
      have := hok n (by omega) p hp
      simp [e0, e1, this.1, this.2]
    unfold setColStep
    simp only [hall, if_true, pure, Except.pure]
    refine ⟨_, rfl, ⟨e0, e1, e2, e3⟩, ?_⟩
    intro r c i j
    simp only
    rw [hg r c i j]
    by_cases hj : i = n
    · subst hj
      by_cases hm : (r, c) ∈ masking (dispCol.get i) gmin gmax g
      · rw [if_pos ⟨rfl, hm⟩, if_pos ⟨by omega, hm⟩]
      · rw [if_neg (fun h => hm h.2), if_neg (fun h => hm h.2), if_neg (fun h => hm h.2)]
    · rw [if_neg (fun h => hj h.1)]
      by_cases hm : i < n ∧ (r, c) ∈ masking (dispCol.get i) gmin gmax g
      · rw [if_pos hm, if_pos ⟨by omega, hm.2⟩]
      · rw [if_neg hm, if_neg (fun h => hm ⟨by omega, h.2⟩)]

/-- A selected cell which does not exist in the data raises `IndexError`. -/
theorem setRow_error (dispRow : Arr1 K) (gmin gmax : Arr2 K) (value : α) (g : Option (K × K)) (n : Nat) :
    ∀ (data : Arr4 α), (∃ j < n, ∃ p ∈ masking (dispRow.get j) gmin gmax g, ¬ (p.1 < data.n0 ∧ p.2 < data.n1)) →
    (List.range n).foldlM (setRowStep dispRow gmin gmax value g) data = .error .indexError := by
  induction n with
  | zero => rintro data ⟨j, hj, _⟩; omega
  | succ n ih =>
    intro data hex
    rw [List.range_succ, List.foldlM_append]
    by_cases hprev : ∃ j < n, ∃ p ∈ masking (dispRow.get j) gmin gmax g, ¬ (p.1 < data.n0 ∧ p.2 < data.n1)
    · rw [ih data hprev]; rfl
    · push Not at hprev
      obtain ⟨d1, h1, ⟨e0, e1, -, -⟩, -⟩ := setOutOfRow_go dispRow gmin gmax value g n data
        (fun j hj p hp => by
          have := hprev j hj p hp
          exact this)
      rw [h1]
      simp only [bind, Except.bind, List.foldlM_cons, List.foldlM_nil]
      obtain ⟨j, hj, p, hp, hnot⟩ := hex
      have hjn : j = n := by
        by_contra hne
        exact hnot (hprev j (by omega) p hp)
      subst hjn
      have hall : ¬ (((masking (dispRow.get j) gmin gmax g).all
          fun p => decide (p.1 < d1.n0) && decide (p.2 < d1.n1)) = true) := by
        rw [List.all_eq_true]
        intro h
        have := h p hp
        simp [e0, e1] at this
        exact hnot this
      unfold setRowStep
      simp only [if_neg hall]

end Verif.Common
