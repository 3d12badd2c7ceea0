import Verif.Spec.Criteria
import Verif.Lemmas.MatchingCost
import Mathlib.Data.Nat.Bitwise
import Mathlib.Data.List.Nodup

/-! Lemmas on the criteria. -/

set_option linter.unusedSectionVars false

namespace Verif.Criteria
open Verif Verif.ImgTools Verif.MatchingCost Verif.Disparity Verif.Spec

theorem autoValue_eq (n : Nat) : autoValue n = 2 ^ n := by
  induction n with
  | zero => rfl
  | succ n ih =>
    unfold autoValue autoNext
    rw [ih, if_neg (by positivity), Nat.log2_two_pow]

theorem value_eq (f : Flag) : f.value = 2 ^ f.rank := autoValue_eq _

theorem has_iff (v : Nat) (f : Flag) : Has v f ↔ v.testBit f.rank = true := by
  unfold Has
  rw [value_eq, Nat.and_two_pow]
  cases v.testBit f.rank <;> simp

theorem rank_inj {f g : Flag} (h : f.rank = g.rank) : f = g := by
  cases f <;> cases g <;> simp_all [Flag.rank]

theorem testBit_value (f g : Flag) : f.value.testBit g.rank = decide (f = g) := by
  rw [value_eq, Nat.testBit_two_pow]
  by_cases h : f = g
  · subst h; simp
  · simp only [h, decide_false, decide_eq_false_iff_not]
    exact fun e => h (rank_inj e)

theorem has_or (a b : Nat) (f : Flag) : Has (a ||| b) f ↔ Has a f ∨ Has b f := by
  simp [has_iff, Nat.testBit_or]

theorem has_value (f g : Flag) : Has f.value g ↔ f = g := by
  rw [has_iff, testBit_value]; simp

theorem not_has_zero (f : Flag) : ¬ Has 0 f := by simp [Has]

/-- The slices of the right mask and of the criteria along one axis correspond. -/
theorem slices (n : Nat) (d : Int) :
    (mskSlice n d).2 = (critSlice n d).2 ∧ ∀ r < n,
      ((critSlice n d).1 ≤ r ∧ r < (critSlice n d).1 + (critSlice n d).2 ↔ 0 ≤ (r : Int) + d ∧ (r : Int) + d < n) ∧
      (0 ≤ (r : Int) + d ∧ (r : Int) + d < n → (mskSlice n d).1 + (r - (critSlice n d).1) = ((r : Int) + d).toNat) := by
  unfold mskSlice critSlice sliceStart sliceLen clampIdx
  rcases lt_trichotomy d 0 with h | h | h
  · simp only [if_pos h, if_pos (le_of_lt h)]
    refine ⟨?_, fun r hr => ⟨?_, ?_⟩⟩ <;> split_ifs <;> omega
  · subst h
    simp only [lt_irrefl, if_false, le_refl, if_true]
    refine ⟨?_, fun r hr => ⟨?_, ?_⟩⟩ <;> split_ifs <;> omega
  · simp only [if_neg (not_lt.2 (le_of_lt h)), if_neg (not_le.2 h)]
    refine ⟨?_, fun r hr => ⟨?_, ?_⟩⟩ <;> split_ifs <;> omega

variable {K : Type} [Field K] [LinearOrder K] [IsStrictOrderedRing K] [FloorRing K]

open Classical in
/-- Contribution of the right mask at a displaced pixel. -/
noncomputable def contrib (mask : Arr2 Nat) (r c : Nat) (dr dc : Int) : Nat :=
  if (0 ≤ (r : Int) + dr ∧ (r : Int) + dr < mask.h) ∧ (0 ≤ (c : Int) + dc ∧ (c : Int) + dc < mask.w) then
    mask.get ((r : Int) + dr).toNat ((c : Int) + dc).toNat
  else 0

theorem rightStep_ok (mask : Arr2 Nat) (x : Crit K) (ji : Nat × Nat) (hf : x.floatDisp = false)
    (hh : mask.h = x.row.n) (hw : mask.w = x.col.n) :
    ∃ d', rightStep mask x ji = .ok { x with data := d' } ∧
      ∀ r < x.row.n, ∀ c < x.col.n, ∀ i j, d' r c i j =
        if (j, i) = ji then x.data r c i j ||| contrib mask r c ⌊x.dispRow.get j⌋ ⌊x.dispCol.get i⌋ else x.data r c i j := by
  unfold rightStep
  rw [if_neg (by simp [hf])]
  simp only
  obtain ⟨s1, s2⟩ := slices x.row.n ⌊x.dispRow.get ji.1⌋
  obtain ⟨t1, t2⟩ := slices x.col.n ⌊x.dispCol.get ji.2⌋
  rw [hh, hw]
  rw [if_pos ⟨Or.inl s1, Or.inl t1⟩]
  refine ⟨_, rfl, ?_⟩
  intro r hr c hc i j
  simp only [if_pos s1, if_pos t1]
  obtain ⟨u1, u2⟩ := s2 r hr
  obtain ⟨v1, v2⟩ := t2 c hc
  obtain ⟨j0, i0⟩ := ji
  simp only at *
  by_cases e : (j, i) = (j0, i0)
  · obtain ⟨rfl, rfl⟩ := Prod.mk.inj e
    rw [if_pos rfl]
    unfold contrib
    rw [hh, hw]
    by_cases hin : (0 ≤ (r : Int) + ⌊x.dispRow.get j⌋ ∧ (r : Int) + ⌊x.dispRow.get j⌋ < x.row.n) ∧
        (0 ≤ (c : Int) + ⌊x.dispCol.get i⌋ ∧ (c : Int) + ⌊x.dispCol.get i⌋ < x.col.n)
    · rw [if_pos hin]
      have a := u1.2 hin.1
      have b := v1.2 hin.2
      rw [if_pos ⟨rfl, rfl, a.1, a.2, b.1, b.2⟩, u2 hin.1, v2 hin.2]
    · rw [if_neg hin, if_neg]
      · simp
      · rintro ⟨-, -, a, b, c', d⟩
        exact hin ⟨u1.1 ⟨a, b⟩, v1.1 ⟨c', d⟩⟩
  · rw [if_neg e, if_neg]
    rintro ⟨rfl, rfl, -⟩
    exact e rfl

theorem rightFold (mask : Arr2 Nat) (l : List (Nat × Nat)) : ∀ (x : Crit K), l.Nodup → x.floatDisp = false →
    mask.h = x.row.n → mask.w = x.col.n →
    ∃ d', l.foldlM (rightStep mask) x = .ok { x with data := d' } ∧
      ∀ r < x.row.n, ∀ c < x.col.n, ∀ i j, d' r c i j =
        if (j, i) ∈ l then x.data r c i j ||| contrib mask r c ⌊x.dispRow.get j⌋ ⌊x.dispCol.get i⌋ else x.data r c i j := by
  induction l with
  | nil => intro x _ _ _ _; exact ⟨x.data, rfl, fun r _ c _ i j => by simp⟩
  | cons ji l ih =>
    intro x hn hf hh hw
    obtain ⟨d1, e1, p1⟩ := rightStep_ok mask x ji hf hh hw
    obtain ⟨d2, e2, p2⟩ := ih { x with data := d1 } (List.nodup_cons.1 hn).2 hf hh hw
    refine ⟨d2, ?_, ?_⟩
    · rw [List.foldlM_cons, e1]
      simp only [bind, Except.bind]
      rw [e2]
    · intro r hr c hc i j
      rw [p2 r hr c hc i j]
      simp only
      rw [p1 r hr c hc i j]
      by_cases h1 : (j, i) = ji
      · simp [h1]
      · simp [h1]

theorem product_nodup (n m : Nat) :
    ((List.range n).flatMap fun j => (List.range m).map fun i => (j, i)).Nodup := by
  rw [List.nodup_flatMap]
  refine ⟨fun j _ => ?_, ?_⟩
  · apply List.Nodup.map _ List.nodup_range
    intro a b h; exact (Prod.mk.inj h).2
  · apply List.Pairwise.imp _ (List.nodup_range (n := n))
    intro a b hab
    simp only [Function.onFun]
    intro x hx hy
    simp at hx hy
    obtain ⟨i, _, rfl⟩ := hx
    obtain ⟨i', _, h⟩ := hy
    exact hab (Prod.mk.inj h).1.symm

theorem applyRight_ok (x : Crit K) (mask : Arr2 Nat) (hf : x.floatDisp = false) (hh : mask.h = x.row.n)
    (hw : mask.w = x.col.n) :
    ∃ d', applyRight x mask = .ok { x with data := d' } ∧
      ∀ r < x.row.n, ∀ c < x.col.n, ∀ i < x.dispCol.n, ∀ j < x.dispRow.n, d' r c i j =
        x.data r c i j ||| contrib mask r c ⌊x.dispRow.get j⌋ ⌊x.dispCol.get i⌋ := by
  obtain ⟨d', e, p⟩ := rightFold mask _ x (product_nodup x.dispRow.n x.dispCol.n) hf hh hw
  refine ⟨d', e, fun r hr c hc i hi j hj => ?_⟩
  rw [p r hr c hc i j, if_pos]
  simp [hi, hj]

theorem inBorder_iff (n offset k : Nat) (hk : k < n) (ho : 0 < offset) :
    inBorder n offset k = true ↔ ¬ (offset ≤ k ∧ k + offset < n) := by
  unfold inBorder sliceStart sliceLen clampIdx
  simp only [Bool.or_eq_true, decide_eq_true_eq]
  rw [if_neg (by omega), if_neg (by omega), if_pos (by omega)]
  omega

theorem dilated_iff (img : Img K) (o r c : Nat) :
    dilated img (2 * o + 1) r c = true ↔ NoDataInWindow img o r c := by
  unfold dilated NoDataInWindow
  have e : (2 * o + 1) / 2 = o := by omega
  rw [e]
  simp only [List.any_eq_true, List.mem_range, Bool.and_eq_true, decide_eq_true_eq]
  constructor
  · rintro ⟨a, ha, b, hb, ⟨⟨⟨h1, h2⟩, h3⟩, h4⟩, h5⟩
    refine ⟨r + a - o, h2, c + b - o, h4, ?_, ?_, h5⟩
    · rw [abs_le]; omega
    · rw [abs_le]; omega
  · rintro ⟨y, hy, x, hx, h1, h2, h3⟩
    rw [abs_le] at h1 h2
    refine ⟨y + o - r, by omega, x + o - c, by omega, ⟨⟨⟨by omega, ?_⟩, by omega⟩, ?_⟩, ?_⟩
    · rw [show r + (y + o - r) - o = y by omega]; exact hy
    · rw [show c + (x + o - c) - o = x by omega]; exact hx
    · rw [show r + (y + o - r) - o = y by omega, show c + (x + o - c) - o = x by omega]; exact h3

end Verif.Criteria
