import Verif.Props.OpticalFlowMore

/-!
# A least squares solver satisfying the contract of `np.linalg.lstsq`

Used by the examples and counterexamples on the optical flow: the contract is satisfiable, and the counterexamples do not come from
a wrong solver.
-/

set_option linter.unusedSectionVars false

namespace Verif.Props

open Verif Verif.OpticalFlow

variable {K : Type} [Field K] [LinearOrder K] [IsStrictOrderedRing K]

/-- One equation: coefficients of `x` and `y`, right-hand side. -/
abbrev Eqn (K : Type) := (K × K) × K

/-- Sum over the equations. -/
def total (f : Eqn K → K) (l : List (Eqn K)) : K := (l.map f).sum

theorem total_nil (f : Eqn K → K) : total f [] = 0 := rfl
theorem total_cons (f : Eqn K → K) (q : Eqn K) (l : List (Eqn K)) : total f (q :: l) = f q + total f l := by
  simp [total]

theorem total_zero {f : Eqn K → K} {l : List (Eqn K)} (h : ∀ q ∈ l, f q = 0) : total f l = 0 := by
  induction l with
  | nil => rfl
  | cons q l ih =>
    rw [total_cons, h q (by simp), ih fun q hq => h q (by simp [hq]), add_zero]

theorem total_nonneg {f : Eqn K → K} {l : List (Eqn K)} (h : ∀ q ∈ l, 0 ≤ f q) : 0 ≤ total f l := by
  induction l with
  | nil => exact le_rfl
  | cons q l ih =>
    rw [total_cons]
    exact add_nonneg (h q (by simp)) (ih fun q hq => h q (by simp [hq]))

theorem zero_of_total {f : Eqn K → K} {l : List (Eqn K)} (h : ∀ q ∈ l, 0 ≤ f q) (ht : total f l = 0) :
    ∀ q ∈ l, f q = 0 := by
  induction l with
  | nil => simp
  | cons q l ih =>
    rw [total_cons, add_eq_zero_iff_of_nonneg (h q (by simp)) (total_nonneg fun q hq => h q (by simp [hq]))] at ht
    intro p hp
    rcases List.mem_cons.1 hp with rfl | hp
    · exact ht.1
    · exact ih (fun q hq => h q (by simp [hq])) ht.2 p hp

def xx : Eqn K → K := fun q => q.1.1 * q.1.1
def xy : Eqn K → K := fun q => q.1.1 * q.1.2
def yy : Eqn K → K := fun q => q.1.2 * q.1.2
def xb : Eqn K → K := fun q => q.1.1 * q.2
def yb : Eqn K → K := fun q => q.1.2 * q.2
def bb : Eqn K → K := fun q => q.2 * q.2

theorem residual_eq (a : List (K × K)) (b : List K) (x y : K) :
    residual a b x y = total xx (a.zip b) * x * x + 2 * total xy (a.zip b) * x * y + total yy (a.zip b) * y * y
      - 2 * total xb (a.zip b) * x - 2 * total yb (a.zip b) * y + total bb (a.zip b) := by
  induction a generalizing b with
  | nil => cases b <;> simp [residual, total_nil]
  | cons p ps ih =>
    cases b with
    | nil => simp [residual, total_nil]
    | cons v vs =>
      simp only [residual, List.zip_cons_cons, total_cons, ih, xx, xy, yy, xb, yb, bb]
      ring

/-- Solution of smallest norm of the normal equations. -/
def solve (l : List (Eqn K)) : K × K :=
  let d := total xx l * total yy l - total xy l * total xy l
  let t := total xx l + total yy l
  if d = 0 then
    if t = 0 then (0, 0)
    else ((total xx l * total xb l + total xy l * total yb l) / (t * t),
          (total xy l * total xb l + total yy l * total yb l) / (t * t))
  else ((total yy l * total xb l - total xy l * total yb l) / d, (total xx l * total yb l - total xy l * total xb l) / d)

/-- The quadratic form of the normal equations. -/
theorem form_eq (l : List (Eqn K)) (u v : K) :
    total xx l * u * u + 2 * total xy l * u * v + total yy l * v * v =
      total (fun q => (q.1.1 * u + q.1.2 * v) * (q.1.1 * u + q.1.2 * v)) l := by
  induction l with
  | nil => simp [total_nil]
  | cons q l ih =>
    simp only [total_cons, xx, xy, yy] at *
    rw [← ih]
    ring

theorem form_nonneg (l : List (Eqn K)) (u v : K) :
    0 ≤ total xx l * u * u + 2 * total xy l * u * v + total yy l * v * v := by
  rw [form_eq]
  exact total_nonneg fun q _ => mul_self_nonneg _

theorem total_lin (l : List (Eqn K)) (u v : K) :
    (∀ q ∈ l, q.1.1 * u + q.1.2 * v = 0) → total xb l * u + total yb l * v = 0 := by
  induction l with
  | nil => simp [total_nil]
  | cons q l ih =>
    intro h
    simp only [total_cons, xb, yb] at *
    have h0 := h q (by simp)
    have h1 := ih fun q hq => h q (by simp [hq])
    linear_combination h1 + q.2 * h0

/-- A null direction of the form is a null direction of the right-hand side. -/
theorem null_rhs (l : List (Eqn K)) (u v : K)
    (h : total xx l * u * u + 2 * total xy l * u * v + total yy l * v * v = 0) :
    total xb l * u + total yb l * v = 0 := by
  rw [form_eq] at h
  apply total_lin
  intro q hq
  exact mul_self_eq_zero.1 (zero_of_total (fun q _ => mul_self_nonneg _) h q hq)

theorem total_lin2 (l : List (Eqn K)) (u v : K) : (∀ q ∈ l, q.1.1 * u + q.1.2 * v = 0) →
    total xx l * u + total xy l * v = 0 ∧ total xy l * u + total yy l * v = 0 := by
  induction l with
  | nil => simp [total_nil]
  | cons q l ih =>
    intro h
    simp only [total_cons, xx, xy, yy] at *
    have h0 := h q (by simp)
    obtain ⟨h1, h2⟩ := ih fun q hq => h q (by simp [hq])
    exact ⟨by linear_combination h1 + q.1.1 * h0, by linear_combination h2 + q.1.2 * h0⟩

theorem null_form (l : List (Eqn K)) (u v : K)
    (h : total xx l * u * u + 2 * total xy l * u * v + total yy l * v * v = 0) :
    total xx l * u + total xy l * v = 0 ∧ total xy l * u + total yy l * v = 0 := by
  rw [form_eq] at h
  apply total_lin2
  intro q hq
  exact mul_self_eq_zero.1 (zero_of_total (fun q _ => mul_self_nonneg _) h q hq)

/-- The normal equations hold, and the solution is orthogonal to the null directions of the form. -/
theorem solve_spec (l : List (Eqn K)) :
    total xx l * (solve l).1 + total xy l * (solve l).2 = total xb l ∧
    total xy l * (solve l).1 + total yy l * (solve l).2 = total yb l ∧
    ∀ u v, total xx l * u * u + 2 * total xy l * u * v + total yy l * v * v = 0 →
      (solve l).1 * u + (solve l).2 * v = 0 := by
  have fn := form_nonneg l
  have nr := null_rhs l
  have nf := null_form l
  unfold solve
  generalize total xx l = A at *
  generalize total xy l = B at *
  generalize total yy l = C at *
  generalize total xb l = p at *
  generalize total yb l = q at *
  have hA : 0 ≤ A := by have := fn 1 0; linarith
  have hC : 0 ≤ C := by have := fn 0 1; linarith
  simp only
  by_cases hd : A * C - B * B = 0
  · rw [if_pos hd]
    have n1 := nr B (-A) (by linear_combination A * hd)
    have n2 := nr C (-B) (by linear_combination C * hd)
    by_cases ht : A + C = 0
    · rw [if_pos ht]
      have a0 : A = 0 := by linarith
      have c0 : C = 0 := by linarith
      have b0 : B = 0 := by
        rw [a0] at hd
        exact mul_self_eq_zero.1 (by linarith)
      subst a0 b0 c0
      have p0 := nr 1 0 (by ring)
      have q0 := nr 0 1 (by ring)
      refine ⟨by linarith, by linarith, ?_⟩
      intro u v _
      ring
    · rw [if_neg ht]
      have htt : (A + C) * (A + C) ≠ 0 := mul_ne_zero ht ht
      refine ⟨?_, ?_, ?_⟩
      · rw [mul_div_assoc', mul_div_assoc', ← add_div, div_eq_iff htt]
        linear_combination (-p) * hd - (A + C) * n2
      · rw [mul_div_assoc', mul_div_assoc', ← add_div, div_eq_iff htt]
        linear_combination (-q) * hd + (A + C) * n1
      · intro u v h
        obtain ⟨g1, g2⟩ := nf u v h
        rw [div_mul_eq_mul_div, div_mul_eq_mul_div, ← add_div, div_eq_zero_iff]
        left
        linear_combination p * g1 + q * g2
  · rw [if_neg hd]
    refine ⟨?_, ?_, ?_⟩
    · rw [mul_div_assoc', mul_div_assoc', ← add_div, div_eq_iff hd]
      ring
    · rw [mul_div_assoc', mul_div_assoc', ← add_div, div_eq_iff hd]
      ring
    · intro u v h
      obtain ⟨g1, g2⟩ := nf u v h
      have u0 : u = 0 := by
        have : (A * C - B * B) * u = 0 := by linear_combination C * g1 - B * g2
        exact (mul_eq_zero.1 this).resolve_left hd
      have v0 : v = 0 := by
        have : (A * C - B * B) * v = 0 := by linear_combination A * g2 - B * g1
        exact (mul_eq_zero.1 this).resolve_left hd
      rw [u0, v0]
      ring

/-- The value of a finite float. -/
def value : F K → K
  | .fin k => k
  | _ => 0

def isFin : F K → Bool
  | .fin _ => true
  | _ => false

/-- A solver: LinAlgError when the matrix is not finite, NaN when only the right-hand side is not. -/
def exLstsq (a : List (F K × F K)) (b : List (F K)) : Option (F K × F K) :=
  if a.all fun p => isFin p.1 && isFin p.2 then
    if b.all isFin then
      let s := solve ((a.map fun p => (value p.1, value p.2)).zip (b.map value))
      some (.fin s.1, .fin s.2)
    else some (.nan, .nan)
  else none

/-- The solver satisfies the contract, whatever the resampling. -/
theorem exLstsq_contract (warp : Win K → F K → F K → Win K) : LeastSquares (⟨exLstsq, warp⟩ : Ext K) := by
  intro a b hab
  set s := solve (a.zip b) with hs
  obtain ⟨e1, e2, e3⟩ := solve_spec (a.zip b)
  rw [← hs] at e1 e2 e3
  have diff : ∀ x' y', residual a b x' y' = residual a b s.1 s.2 +
      (total xx (a.zip b) * (x' - s.1) * (x' - s.1) + 2 * total xy (a.zip b) * (x' - s.1) * (y' - s.2) +
        total yy (a.zip b) * (y' - s.2) * (y' - s.2)) := by
    intro x' y'
    rw [residual_eq, residual_eq, ← e1, ← e2]
    ring
  refine ⟨s.1, s.2, ?_, ?_, ?_⟩
  · show exLstsq _ _ = _
    unfold exLstsq
    have h1 : (a.map fun p => ((F.fin p.1 : F K), (F.fin p.2 : F K))).all (fun p => isFin p.1 && isFin p.2) = true := by
      simp [isFin]
    have h2 : (b.map F.fin : List (F K)).all isFin = true := by simp [isFin]
    rw [if_pos h1, if_pos h2]
    simp only [List.map_map]
    have h3 : ((fun p : F K × F K => (value p.1, value p.2)) ∘ fun p : K × K => ((F.fin p.1 : F K), (F.fin p.2 : F K))) =
        id := by funext p; rfl
    have h4 : ((value : F K → K) ∘ F.fin) = id := by funext p; rfl
    rw [h3, h4, List.map_id, List.map_id]
  · intro x' y'
    rw [diff x' y']
    linarith [form_nonneg (a.zip b) (x' - s.1) (y' - s.2)]
  · intro x' y' h
    rw [diff x' y'] at h
    have h0 := e3 (x' - s.1) (y' - s.2) (by linarith)
    have a1 := mul_self_nonneg (x' - s.1)
    have a2 := mul_self_nonneg (y' - s.2)
    have : x' * x' + y' * y' = s.1 * s.1 + s.2 * s.2 + 2 * (s.1 * (x' - s.1) + s.2 * (y' - s.2)) +
      (x' - s.1) * (x' - s.1) + (y' - s.2) * (y' - s.2) := by ring
    rw [this, h0]
    linarith

end Verif.Props
