import Verif.Spec.Filters
import Mathlib.Tactic.Ring
import Mathlib.Tactic.Linarith
import Mathlib.Tactic.FieldSimp
import Mathlib.Tactic.NormNum
import Mathlib.Algebra.BigOperators.Fin
import Mathlib.Algebra.BigOperators.Intervals

/-! Lemmas about the interpolation filters. -/

set_option linter.unusedSectionVars false

namespace Verif.Filters

open Verif Verif.Spec

variable {K : Type} [Field K] [LinearOrder K]

theorem dot_succ (n : Nat) (a : Nat → K) (b : Nat → F K) :
    dot (n + 1) a b = F.add (dot n a b) (F.mul (.fin (a n)) (b n)) := by
  simp [dot, List.range_succ]

/-- A dot product of finite values. -/
theorem dot_fin (n : Nat) (a : Nat → K) (b : Nat → F K) (v : Nat → K) (h : ∀ i < n, b i = .fin (v i)) :
    dot n a b = .fin (∑ i ∈ Finset.range n, a i * v i) := by
  induction n with
  | zero => simp [dot]
  | succ n ih =>
    rw [dot_succ, ih (fun i hi => h i (by omega)), h n (by omega), Finset.sum_range_succ]
    rfl

theorem add_nan (a : F K) : F.add a .nan = .nan := by cases a <;> rfl
theorem nan_add (a : F K) : F.add .nan a = .nan := by cases a <;> rfl
theorem mul_nan (a : F K) : F.mul a .nan = .nan := by cases a <;> rfl

/-- A NaN among the values makes the dot product NaN. -/
theorem dot_nan (n : Nat) (a : Nat → K) (b : Nat → F K) (i : Nat) (hi : i < n) (h : b i = .nan) : dot n a b = .nan := by
  induction n with
  | zero => omega
  | succ n ih =>
    rw [dot_succ]
    rcases Nat.lt_succ_iff_lt_or_eq.1 hi with h1 | h1
    · rw [ih h1, nan_add]
    · subst h1; rw [h, mul_nan, add_nan]

theorem apply_fin (area : Arr2 (F K)) (cr cc : Arr1 K) (v : Nat → Nat → K) (h1 : cr.n = area.h) (h2 : cc.n = area.w)
    (h : ∀ i < area.h, ∀ j < area.w, area.get i j = .fin (v i j)) :
    apply area cr cc =
      .ok (.fin (∑ j ∈ Finset.range area.w, cc.get j * ∑ i ∈ Finset.range area.h, cr.get i * v i j)) := by
  unfold apply
  rw [if_neg (by simp [h1]), if_neg (by simp [h2])]
  congr 1
  refine dot_fin _ _ _ _ fun j hj => ?_
  exact dot_fin _ _ _ _ fun i hi => h i hi j hj

/-- Slices whose bounds are inside the array. -/
theorem slice_inside (n : Nat) (a : Int) (s : Nat) (h0 : 0 ≤ a) (h1 : a + s ≤ n) :
    sliceLen n a (a + s) = s ∧ sliceStart n a = a.toNat := by
  unfold sliceLen sliceStart clampIdx
  split_ifs <;> omega

section floor
variable [IsStrictOrderedRing K] [FloorRing K]

/-- The area of a position whose window is inside the image. -/
theorem area_inside (f : IFilter K) (im : Arr2 (F K)) (pc pr : K) (h : AreaInside im (⌊pr⌋ - f.left) (⌊pc⌋ - f.up) f.size) :
    (area f im pc pr).h = f.size ∧ (area f im pc pr).w = f.size ∧
      ∀ i j, (area f im pc pr).get i j = im.get ((⌊pr⌋ - f.left).toNat + i) ((⌊pc⌋ - f.up).toNat + j) := by
  obtain ⟨h1, h2, h3, h4⟩ := h
  obtain ⟨a1, a2⟩ := slice_inside im.h _ f.size h1 h2
  obtain ⟨b1, b2⟩ := slice_inside im.w _ f.size h3 h4
  refine ⟨a1, b1, fun i j => ?_⟩
  simp only [area, slice2, a2, b2]

theorem fracAbs_nonneg (x : K) (h : 0 ≤ x) : fracAbs x = Int.fract x := by simp [fracAbs, h]

/-- Length of the list of interpolated values. -/
theorem interpolate_length (f : IFilter K) (im : Arr2 (F K)) : ∀ (ps : List (K × K)) (l : List (F K)),
    interpolate f im ps = .ok l → l.length = ps.length
  | [], l, h => by
    simp only [interpolate, Except.ok.injEq] at h
    simp [← h]
  | p :: ps, l, h => by
    unfold interpolate at h
    split at h
    · simp at h
    · split at h
      · simp at h
      · rename_i vs hvs
        have h' := Except.ok.inj h
        subst h'
        simp [interpolate_length f im ps vs hvs]

/-- Each value is the one of its position. -/
theorem interpolate_get (f : IFilter K) (im : Arr2 (F K)) : ∀ (ps : List (K × K)) (l : List (F K)),
    interpolate f im ps = .ok l → ∀ i (hi : i < ps.length) (hl : i < l.length), interpolate1 f im ps[i] = .ok l[i]
  | [], l, h => by simp
  | p :: ps, l, h => by
    unfold interpolate at h
    split at h
    · simp at h
    · rename_i v hv
      split at h
      · simp at h
      · rename_i vs hvs
        have h' := Except.ok.inj h
        subst h'
        intro i hi hl
        cases i with
        | zero => simpa using hv
        | succ i => simpa using interpolate_get f im ps vs hvs i (by simpa using hi) (by simpa using hl)

/-- It succeeds when every position does. -/
theorem interpolate_ok (f : IFilter K) (im : Arr2 (F K)) : ∀ (ps : List (K × K)),
    (∀ p ∈ ps, ∃ v, interpolate1 f im p = .ok v) → ∃ l, interpolate f im ps = .ok l
  | [], _ => ⟨[], rfl⟩
  | p :: ps, h => by
    obtain ⟨v, hv⟩ := h p List.mem_cons_self
    obtain ⟨l, hl⟩ := interpolate_ok f im ps fun q hq => h q (List.mem_cons_of_mem _ hq)
    exact ⟨v :: l, by simp [interpolate, hv, hl]⟩

end floor

/-! ### Bicubic -/

variable [IsStrictOrderedRing K]

theorem bicubic_closed (t : K) (h0 : 0 ≤ t) (h1 : t ≤ 1) :
    bicubicCoeff t 0 = -(t * (1 - t) ^ 2) / 2 ∧ bicubicCoeff t 1 = (3 * t ^ 3 - 5 * t ^ 2 + 2) / 2 ∧
    bicubicCoeff t 2 = (-3 * t ^ 3 + 4 * t ^ 2 + t) / 2 ∧ bicubicCoeff t 3 = (t ^ 3 - t ^ 2) / 2 := by
  have e0 : |(-1 : K) + ((0 : Nat) : K) - t| = 1 + t := by
    rw [abs_of_nonpos (by push_cast; linarith)]; push_cast; ring
  have e1 : |(-1 : K) + ((1 : Nat) : K) - t| = t := by
    rw [abs_of_nonpos (by push_cast; linarith)]; push_cast; ring
  have e2 : |(-1 : K) + ((2 : Nat) : K) - t| = 1 - t := by
    rw [abs_of_nonneg (by push_cast; linarith)]; push_cast; ring
  have e3 : |(-1 : K) + ((3 : Nat) : K) - t| = 2 - t := by
    rw [abs_of_nonneg (by push_cast; linarith)]; push_cast; ring
  refine ⟨?_, ?_, ?_, ?_⟩
  · simp only [bicubicCoeff, e0]
    split_ifs with h
    · have : t = 0 := by linarith
      subst this; ring
    · ring
  · simp only [bicubicCoeff, e1]
    rw [if_pos h1]; ring
  · simp only [bicubicCoeff, e2]
    rw [if_pos (by linarith)]; ring
  · simp only [bicubicCoeff, e3]
    split_ifs with h
    · have : t = 1 := by linarith
      subst this; ring
    · ring

end Verif.Filters
