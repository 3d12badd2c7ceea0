import Verif.Lemmas.Filters
import Mathlib.Analysis.SpecialFunctions.Trigonometric.Basic
import Mathlib.Analysis.SpecialFunctions.Exp
import Mathlib.Algebra.BigOperators.Intervals
import Mathlib.Tactic.Positivity

/-! Lemmas about the cardinal sine filter. -/

namespace Verif.Filters

open Verif

theorem rawSum_eq (n : Nat) (t : ℝ) : rawSum n t = ∑ k ∈ Finset.range (2 * n + 1), rawCoeff n t k := by
  unfold rawSum
  generalize 2 * n + 1 = N
  induction N with
  | zero => simp
  | succ N ih => rw [List.range_succ, List.foldl_append, ih, Finset.sum_range_succ]; rfl

/-- An alternating sum of a decreasing sequence of non negative numbers is between zero and its first term. -/
theorem alternating (N : Nat) : ∀ f : Nat → ℝ, (∀ i, f (i + 1) ≤ f i) → (∀ i, 0 ≤ f i) →
    0 ≤ ∑ i ∈ Finset.range N, (-1 : ℝ) ^ i * f i ∧ ∑ i ∈ Finset.range N, (-1 : ℝ) ^ i * f i ≤ f 0 := by
  induction N with
  | zero => intro f _ h0; simpa using h0 0
  | succ N ih =>
    intro f hf h0
    have h := ih (fun i => f (i + 1)) (fun i => hf (i + 1)) (fun i => h0 (i + 1))
    have e : ∑ i ∈ Finset.range (N + 1), (-1 : ℝ) ^ i * f i = f 0 - ∑ i ∈ Finset.range N, (-1 : ℝ) ^ i * f (i + 1) := by
      rw [Finset.sum_range_succ']
      simp only [pow_zero, one_mul]
      rw [add_comm, sub_eq_add_neg, ← Finset.sum_neg_distrib]
      congr 1
      exact Finset.sum_congr rfl fun i _ => by ring
    rw [e]
    have := hf 0
    simp only [zero_add] at *
    constructor <;> linarith [h.1, h.2]

theorem alternating_pos (N : Nat) (f : Nat → ℝ) (hf : ∀ i, f (i + 1) < f i) (h0 : ∀ i, 0 ≤ f i) :
    0 < ∑ i ∈ Finset.range (N + 1), (-1 : ℝ) ^ i * f i := by
  have h := alternating N (fun i => f (i + 1)) (fun i => (hf (i + 1)).le) (fun i => h0 (i + 1))
  have e : ∑ i ∈ Finset.range (N + 1), (-1 : ℝ) ^ i * f i = f 0 - ∑ i ∈ Finset.range N, (-1 : ℝ) ^ i * f (i + 1) := by
    rw [Finset.sum_range_succ']
    simp only [pow_zero, one_mul]
    rw [add_comm, sub_eq_add_neg, ← Finset.sum_neg_distrib]
    congr 1
    exact Finset.sum_congr rfl fun i _ => by ring
  rw [e]
  have := hf 0
  simp only [zero_add] at *
  linarith [h.2]

/-- The decreasing envelope of the coefficients. -/
noncomputable def env (a x : ℝ) : ℝ := Real.exp (-(a * (x * x))) / (Real.pi * x)

theorem env_pos (a x : ℝ) (hx : 0 < x) : 0 < env a x := by
  unfold env
  have := Real.pi_pos
  positivity

theorem env_lt (a x y : ℝ) (ha : 0 ≤ a) (hx : 0 < x) (hxy : x < y) : env a y < env a x := by
  unfold env
  have hpi := Real.pi_pos
  have h1 : Real.exp (-(a * (y * y))) ≤ Real.exp (-(a * (x * x))) := by
    apply Real.exp_le_exp.2
    have : x * x ≤ y * y := mul_le_mul hxy.le hxy.le hx.le (by linarith)
    have := mul_le_mul_of_nonneg_left this ha
    linarith
  have h2 : Real.pi * x < Real.pi * y := mul_lt_mul_of_pos_left hxy hpi
  calc Real.exp (-(a * (y * y))) / (Real.pi * y) ≤ Real.exp (-(a * (x * x))) / (Real.pi * y) :=
        div_le_div_of_nonneg_right h1 (mul_nonneg hpi.le (by linarith))
    _ < Real.exp (-(a * (x * x))) / (Real.pi * x) := div_lt_div_of_pos_left (Real.exp_pos _) (by positivity) h2

/-- The coefficient at the left of the centre, at distance `t + p`. -/
theorem rawCoeff_left (n p : Nat) (hp : p ≤ n) (t : ℝ) (h0 : 0 < t) :
    rawCoeff n t (n - p) = Real.sin (Real.pi * t) * ((-1 : ℝ) ^ p * env (2 * Real.pi / (n * n)) (t + p)) := by
  have hx : t - (((n - p : Nat) : ℝ) - (n : ℝ)) = t + p := by rw [Nat.cast_sub hp]; ring
  have hp0 : (0 : ℝ) ≤ p := Nat.cast_nonneg p
  have hne : t + (p : ℝ) ≠ 0 := by linarith
  simp only [rawCoeff, hx, sinc, if_neg hne, env]
  have hs : Real.sin (Real.pi * (t + p)) = (-1 : ℝ) ^ p * Real.sin (Real.pi * t) := by
    rw [mul_add, mul_comm Real.pi (p : ℝ), Real.sin_add_nat_mul_pi]
  have he : -2 * Real.pi / ((n : ℝ) * n) * (t + p) * (t + p) = -(2 * Real.pi / ((n : ℝ) * n) * ((t + p) * (t + p))) := by ring
  rw [hs, he]
  ring

/-- The coefficient at the right of the centre, at distance `1 - t + q`. -/
theorem rawCoeff_right (n q : Nat) (t : ℝ) (h1 : t < 1) :
    rawCoeff n t (n + 1 + q) = Real.sin (Real.pi * t) * ((-1 : ℝ) ^ q * env (2 * Real.pi / (n * n)) (1 - t + q)) := by
  have hx : t - (((n + 1 + q : Nat) : ℝ) - (n : ℝ)) = -(1 - t + q) := by push_cast; ring
  have hq0 : (0 : ℝ) ≤ q := Nat.cast_nonneg q
  have hne : -(1 - t + (q : ℝ)) ≠ 0 := by intro h; linarith
  simp only [rawCoeff, hx, sinc, if_neg hne, env]
  have hs : Real.sin (Real.pi * -(1 - t + q)) = -((-1 : ℝ) ^ q * Real.sin (Real.pi * t)) := by
    have e : Real.pi * -(1 - t + (q : ℝ)) = -((Real.pi - Real.pi * t) + q * Real.pi) := by ring
    rw [e, Real.sin_neg, Real.sin_add_nat_mul_pi, Real.sin_pi_sub]
  have he : -2 * Real.pi / ((n : ℝ) * n) * -(1 - t + q) * -(1 - t + q) =
      -(2 * Real.pi / ((n : ℝ) * n) * ((1 - t + q) * (1 - t + q))) := by ring
  rw [hs, he, mul_neg, neg_div_neg_eq]
  ring

/-- The sum of the raw coefficients is positive between the samples. -/
theorem rawSum_pos (n : Nat) (t : ℝ) (h0 : 0 < t) (h1 : t < 1) : 0 < rawSum n t := by
  rw [rawSum_eq, show 2 * n + 1 = (n + 1) + n by ring, Finset.sum_range_add, ← Finset.sum_range_reflect]
  have hS : 0 < Real.sin (Real.pi * t) := by
    apply Real.sin_pos_of_pos_of_lt_pi
    · have := Real.pi_pos; positivity
    · have := Real.pi_pos; nlinarith
  have ha : 0 ≤ 2 * Real.pi / ((n : ℝ) * n) := by have := Real.pi_pos; positivity
  have e1 : ∑ j ∈ Finset.range (n + 1), rawCoeff n t (n + 1 - 1 - j) =
      Real.sin (Real.pi * t) * ∑ p ∈ Finset.range (n + 1), (-1 : ℝ) ^ p * env (2 * Real.pi / (n * n)) (t + p) := by
    rw [Finset.mul_sum]
    refine Finset.sum_congr rfl fun p hp => ?_
    rw [Nat.add_sub_cancel]
    exact rawCoeff_left n p (by have := Finset.mem_range.1 hp; omega) t h0
  have e2 : ∑ x ∈ Finset.range n, rawCoeff n t (n + 1 + x) =
      Real.sin (Real.pi * t) * ∑ q ∈ Finset.range n, (-1 : ℝ) ^ q * env (2 * Real.pi / (n * n)) (1 - t + q) := by
    rw [Finset.mul_sum]
    exact Finset.sum_congr rfl fun q _ => rawCoeff_right n q t h1
  rw [e1, e2]
  have p1 := alternating_pos n (fun p => env (2 * Real.pi / (n * n)) (t + p))
    (fun i => env_lt _ _ _ ha (by have : (0 : ℝ) ≤ i := Nat.cast_nonneg i; linarith) (by push_cast; linarith))
    (fun i => (env_pos _ _ (by have : (0 : ℝ) ≤ i := Nat.cast_nonneg i; linarith)).le)
  have p2 := (alternating n (fun q => env (2 * Real.pi / (n * n)) (1 - t + q))
    (fun i => (env_lt _ _ _ ha (by have : (0 : ℝ) ≤ i := Nat.cast_nonneg i; linarith) (by push_cast; linarith)).le)
    (fun i => (env_pos _ _ (by have : (0 : ℝ) ≤ i := Nat.cast_nonneg i; linarith)).le)).1
  have := mul_pos hS p1
  have := mul_nonneg hS.le p2
  linarith

/-- The raw coefficients without shift. -/
theorem rawCoeff_zero (n k : Nat) : rawCoeff n 0 k = if k = n then 1 else 0 := by
  unfold rawCoeff sinc
  simp only [zero_sub, neg_sub]
  split_ifs with h1 h2 h2
  · rw [h1]; simp
  · exfalso
    apply h2
    have : (n : ℝ) = k := by linarith
    exact_mod_cast this.symm
  · exfalso; apply h1; rw [h2]; ring
  · have : Real.sin (Real.pi * ((n : ℝ) - k)) = 0 := by
      have e : Real.pi * ((n : ℝ) - k) = ((n - k : Int) : ℝ) * Real.pi := by push_cast; ring
      rw [e]; exact Real.sin_int_mul_pi _
    rw [this]; simp

theorem rawSum_zero (n : Nat) : rawSum n 0 = 1 := by
  rw [rawSum_eq]
  simp only [rawCoeff_zero]
  rw [Finset.sum_ite_eq' (Finset.range (2 * n + 1)) n]
  rw [if_pos (Finset.mem_range.2 (by omega))]

/-- Position in the table of the fractional shifts: the first shift which is not before. -/
theorem searchsorted_shifts (m : Nat) (hm : 0 < m) (t : ℝ) : searchsorted (shifts m) t = min m ⌈t * m⌉₊ := by
  classical
  unfold searchsorted shifts
  simp only
  have hm' : (0 : ℝ) < m := by exact_mod_cast hm
  have h : ∀ (N c : Nat), ((List.range N).filter (fun i => decide (i < c))).length = min N c := by
    intro N c
    induction N with
    | zero => simp
    | succ N ih =>
      rw [List.range_succ, List.filter_append, List.length_append, ih]
      by_cases hc : N < c
      · simp [hc]; omega
      · simp [hc]; omega
  rw [← h]
  congr 1
  refine List.filter_congr fun i _ => ?_
  rw [decide_eq_decide, div_lt_iff₀ hm', Nat.lt_ceil]

end Verif.Filters
