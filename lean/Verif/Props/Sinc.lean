import Verif.Lemmas.Sinc
import Verif.Props.Filters
import Mathlib.Algebra.BigOperators.Field

/-!
# C48: the cardinal sine filter
-/

namespace Verif.Props

open Verif Verif.Filters Verif.Spec

/-- C48: the sum by which the coefficients are divided is positive, for every half size and every fractional shift. -/
theorem C48_well_defined (n : Nat) (t : ℝ) (h0 : 0 ≤ t) (h1 : t < 1) : 0 < rawSum n t := by
  rcases eq_or_lt_of_le h0 with h | h
  · rw [← h, rawSum_zero]; exact one_pos
  · exact rawSum_pos n t h h1

/-- C48: the coefficients sum to one. -/
theorem C48_sum_one (n : Nat) (t : ℝ) (h0 : 0 ≤ t) (h1 : t < 1) :
    ∑ k ∈ Finset.range (2 * n + 1), sincCoeff n t k = 1 := by
  have h := C48_well_defined n t h0 h1
  unfold sincCoeff
  rw [← Finset.sum_div, ← rawSum_eq, div_self h.ne']

/-- C48: unit impulse without shift. -/
theorem C48_impulse (n k : Nat) : sincCoeff n 0 k = if k = n then 1 else 0 := by
  unfold sincCoeff
  rw [rawSum_zero, rawCoeff_zero, div_one]

/-- C48: the row of the table for a shift which is in the table (the multiples of `1 / m`) is the row of this shift. -/
theorem C48_row_of_table (n m j : Nat) (hj : j < m) :
    (cardinalSine n m).coeffs ((j : ℝ) / m) = .ok ⟨2 * n + 1, sincCoeff n ((j : ℝ) / m)⟩ := by
  have hm : 0 < m := by omega
  have hm' : (m : ℝ) ≠ 0 := by exact_mod_cast hm.ne'
  have hs : searchsorted (shifts m) ((j : ℝ) / m) = j := by
    rw [searchsorted_shifts m hm, div_mul_cancel₀ _ hm', Nat.ceil_natCast]
    omega
  simp only [cardinalSine, hs, if_pos hj]
  rfl

/-- Other shifts: the row of the next shift of the table, and IndexError after the last one. -/
theorem C48_row_rounds_up (n m : Nat) (hm : 0 < m) (t : ℝ) :
    (cardinalSine n m).coeffs t =
      if ⌈t * m⌉₊ < m then .ok ⟨2 * n + 1, sincCoeff n ((⌈t * m⌉₊ : ℝ) / m)⟩ else .error .indexError := by
  simp only [cardinalSine, searchsorted_shifts m hm]
  by_cases h : ⌈t * m⌉₊ < m
  · have e : min m ⌈t * m⌉₊ = ⌈t * m⌉₊ := by omega
    rw [if_pos h, e, if_pos h]
    rfl
  · have e : min m ⌈t * m⌉₊ = m := by omega
    rw [if_neg h, e, if_neg (lt_irrefl m)]

/-- The cardinal sine filter is the unit impulse without shift: with `C49_integer_positions_partial`, it interpolates. -/
theorem C49_sinc_impulse (n m : Nat) (hm : 0 < m) : ImpulseAtZero (cardinalSine n m) := by
  have h := C48_row_of_table n m 0 hm
  simp only [Nat.cast_zero, zero_div] at h
  refine ⟨by simp [cardinalSine]; omega, by simp [cardinalSine]; omega, rfl, _, h, by simp [cardinalSine]; omega, ?_⟩
  intro i _
  exact C48_impulse n i

/-- C48: constant signals are reproduced, at every shift of the table, in two dimensions. -/
theorem C48_constant (n m : Nat) (im : Arr2 (F ℝ)) (v : ℝ) (him : ∀ i < im.h, ∀ j < im.w, im.get i j = .fin v) (pc pr : ℝ)
    (hc : 0 ≤ pc) (hr : 0 ≤ pr) (jc jr : Nat) (hjc : jc < m) (hjr : jr < m) (ec : Int.fract pc = (jc : ℝ) / m)
    (er : Int.fract pr = (jr : ℝ) / m) (hm : m ≤ 2 ^ 23) (hw : AreaInside im (⌊pr⌋ - n) (⌊pc⌋ - n) (1 + n * 2)) :
    interpolate1 (cardinalSine n m) im (pc, pr) = .ok (.fin v) := by
  have hm0 : (0 : ℝ) < m := by exact_mod_cast (by omega : 0 < m)
  have small : ∀ j : Nat, j < m → (eps : ℝ) ≤ 1 - (j : ℝ) / m := by
    intro j hj
    have h1 : ((j : ℝ) + 1) ≤ m := by exact_mod_cast hj
    have h2 : (1 : ℝ) / 2 ^ 23 ≤ 1 / m := by
      apply one_div_le_one_div_of_le hm0
      exact_mod_cast hm
    have h3 : (1 : ℝ) / m ≤ 1 - (j : ℝ) / m := by
      rw [le_sub_iff_add_le, ← add_div, div_le_one hm0]; linarith
    unfold eps
    linarith
  have lt1 : ∀ j : Nat, j < m → (j : ℝ) / m < 1 := fun j hj => by
    rw [div_lt_one hm0]; exact_mod_cast hj
  obtain ⟨a1, a2, a3⟩ := area_inside (cardinalSine n m) im pc pr (by simpa [cardinalSine] using hw)
  obtain ⟨w1, w2, w3, w4⟩ := hw
  unfold interpolate1
  simp only
  rw [fracPart_eq pc hc (by rw [ec]; exact small jc hjc), fracPart_eq pr hr (by rw [er]; exact small jr hjr), ec, er,
    C48_row_of_table n m jc hjc, C48_row_of_table n m jr hjr]
  simp only
  have hsz : (cardinalSine n m).size = 2 * n + 1 := by simp [cardinalSine]; omega
  rw [apply_fin _ _ _ (fun _ _ => v) (by rw [a1, hsz]) (by rw [a2, hsz])]
  · rw [a1, a2, hsz]
    congr 2
    simp only [← Finset.sum_mul]
    rw [C48_sum_one n _ (by positivity) (lt1 jr hjr), C48_sum_one n _ (by positivity) (lt1 jc hjc)]
    ring
  · intro i hi j hj
    rw [a1, hsz] at hi
    rw [a2, hsz] at hj
    rw [a3]
    have hl : ((cardinalSine n m).left : Int) = n := rfl
    have hu : ((cardinalSine n m).up : Int) = n := rfl
    rw [hl, hu]
    exact him _ (by omega) _ (by omega)

/-- Tests: the hypotheses of C48 are met by the default filter (half size 6) and nine iterations. -/
example : ∑ k ∈ Finset.range 13, sincCoeff 6 (3 / 8) k = 1 := C48_sum_one 6 _ (by norm_num) (by norm_num)
example : (cardinalSine 6 512).coeffs (((255 : Nat) : ℝ) / (512 : Nat)) = .ok ⟨13, sincCoeff 6 (((255 : Nat) : ℝ) / (512 : Nat))⟩ :=
  C48_row_of_table 6 512 255 (by norm_num)
example : interpolate1 (cardinalSine 6 2) ⟨20, 20, fun _ _ => .fin 7⟩ (((19 : ℝ) / 2), 8) = .ok (.fin 7) := by
  have f1 : ⌊(19 : ℝ) / 2⌋ = 9 := by rw [Int.floor_eq_iff]; norm_num
  have f2 : ⌊(8 : ℝ)⌋ = 8 := by rw [Int.floor_eq_iff]; norm_num
  refine C48_constant 6 2 _ 7 (fun _ _ _ _ => rfl) _ _ (by norm_num) (by norm_num) 1 0 (by norm_num) (by norm_num) ?_ ?_
    (by norm_num) ?_
  · rw [Int.fract, f1]; norm_num
  · rw [Int.fract, f2]; norm_num
  · rw [f1, f2]; unfold AreaInside; norm_num

end Verif.Props
