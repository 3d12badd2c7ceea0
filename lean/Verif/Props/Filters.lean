import Verif.Lemmas.Filters
import Mathlib.Algebra.Order.Floor.Ring
import Mathlib.Data.Rat.Floor
import Mathlib.Algebra.Order.Ring.Rat

/-!
# C47, C48, C49: interpolation filters
-/

set_option linter.unusedSectionVars false

namespace Verif.Props

open Verif Verif.Filters Verif.Spec

variable {K : Type} [Field K] [LinearOrder K] [IsStrictOrderedRing K]

/-! ## C47 -/

/-- C47: the coefficients sum to one. -/
theorem C47_sum_one (t : K) (h0 : 0 ≤ t) (h1 : t ≤ 1) : ∑ i ∈ Finset.range 4, bicubicCoeff t i = 1 := by
  obtain ⟨e0, e1, e2, e3⟩ := bicubic_closed t h0 h1
  simp only [Finset.sum_range_succ, Finset.sum_range_zero, e0, e1, e2, e3]
  ring

/-- C47: unit impulse without shift. -/
theorem C47_impulse (i : Nat) (hi : i < 4) : bicubicCoeff (0 : K) i = if i = 1 then 1 else 0 := by
  obtain ⟨e0, e1, e2, e3⟩ := bicubic_closed (0 : K) le_rfl zero_le_one
  match i, hi with
  | 0, _ => rw [e0]; simp
  | 1, _ => rw [e1]; simp
  | 2, _ => rw [e2]; simp
  | 3, _ => rw [e3]; simp

/-- C47: mirror symmetry. -/
theorem C47_mirror (t : K) (h0 : 0 ≤ t) (h1 : t ≤ 1) (i : Nat) (hi : i < 4) :
    bicubicCoeff (1 - t) i = bicubicCoeff t (3 - i) := by
  obtain ⟨e0, e1, e2, e3⟩ := bicubic_closed t h0 h1
  obtain ⟨f0, f1, f2, f3⟩ := bicubic_closed (1 - t) (by linarith) (by linarith)
  match i, hi with
  | 0, _ => rw [f0, e3]; ring
  | 1, _ => rw [f1, e2]; ring
  | 2, _ => rw [f2, e1]; ring
  | 3, _ => rw [f3, e0]; ring

/-- C47: exact on polynomials of degree at most two, in one dimension; the samples are at -1, 0, 1, 2. -/
theorem C47_quadratic_1d (t : K) (h0 : 0 ≤ t) (h1 : t ≤ 1) (a b c : K) :
    ∑ i ∈ Finset.range 4, bicubicCoeff t i * (a + b * ((i : K) - 1) + c * ((i : K) - 1) ^ 2) = a + b * t + c * t ^ 2 := by
  obtain ⟨e0, e1, e2, e3⟩ := bicubic_closed t h0 h1
  simp only [Finset.sum_range_succ, Finset.sum_range_zero, e0, e1, e2, e3]
  push_cast
  ring

/-- The same around the sample `x`. -/
theorem quadratic_at (t : K) (h0 : 0 ≤ t) (h1 : t ≤ 1) (a b c x : K) :
    ∑ i ∈ Finset.range 4, bicubicCoeff t i * (a + b * (x - 1 + (i : K)) + c * (x - 1 + (i : K)) ^ 2) =
      a + b * (x + t) + c * (x + t) ^ 2 := by
  obtain ⟨e0, e1, e2, e3⟩ := bicubic_closed t h0 h1
  simp only [Finset.sum_range_succ, Finset.sum_range_zero, e0, e1, e2, e3]
  push_cast
  ring

section floor
variable [FloorRing K]

theorem eps_pos : (0 : K) < eps := by unfold eps; positivity

theorem fracPart_eq (x : K) (h : 0 ≤ x) (he : eps ≤ 1 - Int.fract x) : fracPart x = Int.fract x := by
  unfold fracPart
  rw [fracAbs_nonneg x h, if_neg (not_lt.2 he)]

/-- C47: in two dimensions, on every image which samples a polynomial of degree at most two in each variable, the bicubic filter
gives the polynomial itself at every position whose window is inside the image (and whose fractional parts are not within the
float32 epsilon of 1). -/
theorem C47_exact_on_biquadratics (q : Fin 3 → Fin 3 → K) (im : Arr2 (F K))
    (him : ∀ i < im.h, ∀ j < im.w, im.get i j = .fin (biquadratic q (i : K) (j : K))) (pc pr : K)
    (hw : AreaInside im (⌊pr⌋ - 1) (⌊pc⌋ - 1) 4) (h1 : eps ≤ 1 - Int.fract pc) (h2 : eps ≤ 1 - Int.fract pr) :
    interpolate1 bicubic im (pc, pr) = .ok (.fin (biquadratic q pr pc)) := by
  obtain ⟨a1, a2, a3⟩ := area_inside (bicubic : IFilter K) im pc pr (by simpa [bicubic] using hw)
  obtain ⟨w1, w2, w3, w4⟩ := hw
  have hpr : (0 : K) ≤ pr := by
    have : ((1 : Int) : K) ≤ ⌊pr⌋ := by exact_mod_cast (by omega : (1 : Int) ≤ ⌊pr⌋)
    have := Int.floor_le pr
    push_cast at *; linarith
  have hpc : (0 : K) ≤ pc := by
    have : ((1 : Int) : K) ≤ ⌊pc⌋ := by exact_mod_cast (by omega : (1 : Int) ≤ ⌊pc⌋)
    have := Int.floor_le pc
    push_cast at *; linarith
  unfold interpolate1
  simp only [bicubic, fracPart_eq pc hpc h1, fracPart_eq pr hpr h2] at a1 a2 a3 ⊢
  have hr : (((⌊pr⌋ - 1).toNat : Nat) : K) = (⌊pr⌋ : K) - 1 := by
    have : (((⌊pr⌋ - 1).toNat : Int)) = ⌊pr⌋ - 1 := Int.toNat_of_nonneg w1
    have h : ((((⌊pr⌋ - 1).toNat : Int)) : K) = ((⌊pr⌋ - 1 : Int) : K) := by rw [this]
    push_cast at h; exact h
  have hc : (((⌊pc⌋ - 1).toNat : Nat) : K) = (⌊pc⌋ : K) - 1 := by
    have : (((⌊pc⌋ - 1).toNat : Int)) = ⌊pc⌋ - 1 := Int.toNat_of_nonneg w3
    have h : ((((⌊pc⌋ - 1).toNat : Int)) : K) = ((⌊pc⌋ - 1 : Int) : K) := by rw [this]
    push_cast at h; exact h
  rw [apply_fin _ _ _ (fun i j => biquadratic q ((⌊pr⌋ : K) - 1 + i) ((⌊pc⌋ : K) - 1 + j)) (by simp [a1]) (by simp [a2])]
  · rw [a1, a2]
    congr 2
    have f0 : ∀ x : K, 0 ≤ Int.fract x := Int.fract_nonneg
    have f1 : ∀ x : K, Int.fract x ≤ 1 := fun x => (Int.fract_lt_one x).le
    have inner : ∀ j : Nat, ∑ i ∈ Finset.range 4, bicubicCoeff (Int.fract pr) i *
        biquadratic q ((⌊pr⌋ : K) - 1 + i) ((⌊pc⌋ : K) - 1 + j) = biquadratic q pr ((⌊pc⌋ : K) - 1 + j) := by
      intro j
      have := quadratic_at (Int.fract pr) (f0 _) (f1 _)
        (q 0 0 + q 0 1 * ((⌊pc⌋ : K) - 1 + j) + q 0 2 * ((⌊pc⌋ : K) - 1 + j) ^ 2)
        (q 1 0 + q 1 1 * ((⌊pc⌋ : K) - 1 + j) + q 1 2 * ((⌊pc⌋ : K) - 1 + j) ^ 2)
        (q 2 0 + q 2 1 * ((⌊pc⌋ : K) - 1 + j) + q 2 2 * ((⌊pc⌋ : K) - 1 + j) ^ 2) (⌊pr⌋ : K)
      rw [Int.floor_add_fract] at this
      exact this
    simp only [inner]
    have := quadratic_at (Int.fract pc) (f0 _) (f1 _) (q 0 0 + q 1 0 * pr + q 2 0 * pr ^ 2)
      (q 0 1 + q 1 1 * pr + q 2 1 * pr ^ 2) (q 0 2 + q 1 2 * pr + q 2 2 * pr ^ 2) (⌊pc⌋ : K)
    rw [Int.floor_add_fract] at this
    calc _ = _ := Finset.sum_congr rfl fun j _ => by unfold biquadratic; ring
      _ = _ := this
      _ = _ := by unfold biquadratic; ring
  · intro i hi j hj
    rw [a1] at hi
    rw [a2] at hj
    rw [a3, him _ (by omega) _ (by omega)]
    push_cast
    rw [hr, hc]

end floor

/-- A test image: `(i - 2)² + i j`. -/
def testIm : Arr2 (F ℚ) := ⟨6, 7, fun i j => .fin (((i : ℚ) - 2) ^ 2 + i * j)⟩

/-- Tests: the hypotheses of C47 are met at (2.5, 3.25), and the value is that of the polynomial. -/
example : AreaInside testIm (⌊(5 / 2 : ℚ)⌋ - 1) (⌊(13 / 4 : ℚ)⌋ - 1) 4 := by
  unfold AreaInside testIm
  refine ⟨?_, ?_, ?_, ?_⟩ <;> decide +kernel
example : interpolate1 bicubic testIm (13 / 4, 5 / 2) = .ok (.fin (1 / 4 + 65 / 8)) := by decide +kernel
/-- Not exact on cubic polynomials (the limit of C47). -/
example : ∑ i ∈ Finset.range 4, bicubicCoeff (1 / 4 : ℚ) i * ((i : ℚ) - 1) ^ 3 ≠ (1 / 4 : ℚ) ^ 3 := by decide +kernel

/-! ## C49 -/

/-- A filter which is the unit impulse without shift. -/
def ImpulseAtZero (f : IFilter K) : Prop :=
  f.left < f.size ∧ f.up < f.size ∧ f.left = f.up ∧
    ∃ c : Arr1 K, f.coeffs 0 = .ok c ∧ c.n = f.size ∧ ∀ i < f.size, c.get i = if i = f.left then 1 else 0

theorem bicubic_impulse : ImpulseAtZero (bicubic : IFilter K) :=
  ⟨by simp [bicubic], by simp [bicubic], rfl, _, rfl, rfl, fun i hi => C47_impulse i hi⟩

section floor
variable [FloorRing K]

theorem fracPart_int (n : Nat) : fracPart ((n : K)) = 0 := by
  rw [fracPart_eq _ (Nat.cast_nonneg n)]
  · exact Int.fract_natCast n
  · rw [Int.fract_natCast]
    unfold eps
    rw [sub_zero, div_le_one (by positivity)]
    exact one_le_pow₀ (by norm_num)

/-- C49 (partial), for any filter which is the unit impulse without shift: at integer positions, when the window is inside the image
and its samples are finite, the value is the sample itself. Missing: windows with NaN (`C49_false_with_nan`). -/
theorem C49_integer_positions_partial (f : IFilter K) (hf : ImpulseAtZero f) (im : Arr2 (F K)) (r c : Nat)
    (hw : AreaInside im ((r : Int) - f.left) ((c : Int) - f.up) f.size)
    (hfin : FiniteWindow im ((r : Int) - f.left) ((c : Int) - f.up) f.size) :
    interpolate1 f im ((c : K), (r : K)) = .ok (im.get r c) := by
  obtain ⟨hl, hu, heq, co, hco, hn, hget⟩ := hf
  have e1 : ⌊(r : K)⌋ = (r : Int) := Int.floor_natCast r
  have e2 : ⌊(c : K)⌋ = (c : Int) := Int.floor_natCast c
  obtain ⟨a1, a2, a3⟩ := area_inside f im (c : K) (r : K) (by rw [e1, e2]; exact hw)
  obtain ⟨w1, w2, w3, w4⟩ := hw
  rw [e1, e2] at a3
  unfold interpolate1
  simp only [fracPart_int, hco]
  choose! v hv using hfin
  rw [apply_fin _ _ _ v (by rw [hn, a1]) (by rw [hn, a2])]
  · rw [a1, a2]
    have hs : ∑ j ∈ Finset.range f.size, co.get j * ∑ i ∈ Finset.range f.size, co.get i * v i j = v f.left f.up := by
      rw [Finset.sum_eq_single_of_mem f.up (Finset.mem_range.2 hu)]
      · rw [Finset.sum_eq_single_of_mem f.left (Finset.mem_range.2 hl)]
        · rw [hget _ hu, hget _ hl, if_pos heq.symm, if_pos rfl]; ring
        · intro i hi hne
          rw [hget _ (Finset.mem_range.1 hi), if_neg hne, zero_mul]
      · intro j hj hne
        rw [hget _ (Finset.mem_range.1 hj), if_neg (by rw [heq]; exact hne), zero_mul]
    rw [hs]
    have := hv f.left f.up hl hu
    rw [← this]
    congr 2 <;> omega
  · intro i hi j hj
    rw [a1] at hi
    rw [a2] at hj
    rw [a3, ← hv i j hi hj]
    congr 1 <;> omega

/-- C49: one value per position, in the order of the positions. -/
theorem C49_one_value_per_position (f : IFilter K) (im : Arr2 (F K)) (ps : List (K × K)) (l : List (F K))
    (h : interpolate f im ps = .ok l) : l.length = ps.length ∧
      ∀ i (hi : i < ps.length) (hl : i < l.length), interpolate1 f im ps[i] = .ok l[i] :=
  ⟨interpolate_length f im ps l h, interpolate_get f im ps l h⟩

end floor

/-- C49, full statement: at integer positions the value is the sample, whatever the other samples. -/
def C49Statement : Prop :=
  ∀ (im : Arr2 (F ℚ)) (r c : Nat), AreaInside im ((r : Int) - 1) ((c : Int) - 1) 4 →
    interpolate1 bicubic im ((c : ℚ), (r : ℚ)) = .ok (im.get r c)

/-- It is false of the code: 0 * NaN is NaN. (The dichotomy restores the central value for this reason.) -/
theorem C49_false_with_nan : ¬ C49Statement := by
  intro h
  have := h ⟨4, 4, fun i j => if i = 3 ∧ j = 3 then .nan else .fin 1⟩ 1 1 (by unfold AreaInside; decide)
  revert this
  decide +kernel

example : interpolate bicubic testIm [(3, 2), (1, 1), (4, 3)] = .ok [.fin 6, .fin 2, .fin 13] := by decide +kernel
example : FiniteWindow testIm ((2 : Nat) - (1 : Nat)) ((3 : Nat) - (1 : Nat)) 4 := fun _ _ _ _ => ⟨_, rfl⟩

end Verif.Props
