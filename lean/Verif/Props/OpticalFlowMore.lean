import Verif.Props.OpticalFlow
import Mathlib.Tactic.NormNum
import Mathlib.Tactic.FieldSimp
import Mathlib.Tactic.Positivity

/-!
# Optical flow: counterexamples for C52, and properties C63 to C66
-/

set_option linter.unusedSectionVars false

namespace Verif.Props

open Verif Verif.ImgTools Verif.Disparity Verif.OpticalFlow Verif.Spec

variable {K : Type} [Field K] [LinearOrder K] [IsStrictOrderedRing K] [FloorRing K]

/-! ## The contract of `np.linalg.lstsq` -/

/-- Sum of the squares of `a · (x, y) - b`. -/
def residual : List (K × K) → List K → K → K → K
  | p :: ps, b :: bs, x, y => (p.1 * x + p.2 * y - b) * (p.1 * x + p.2 * y - b) + residual ps bs x y
  | _, _, _, _ => 0

/-- On finite data the least squares solution of smallest norm is returned. -/
def LeastSquares (e : Ext K) : Prop :=
  ∀ (a : List (K × K)) (b : List K), a.length = b.length → ∃ x y,
    e.lstsq (a.map fun p => (.fin p.1, .fin p.2)) (b.map .fin) = some (.fin x, .fin y) ∧
    (∀ x' y', residual a b x y ≤ residual a b x' y') ∧
    ∀ x' y', residual a b x' y' = residual a b x y → x * x + y * y ≤ x' * x' + y' * y'

theorem residual_nonneg (a : List (K × K)) (b : List K) (x y : K) : 0 ≤ residual a b x y := by
  induction a generalizing b with
  | nil => cases b <;> simp [residual]
  | cons p ps ih =>
    cases b with
    | nil => simp [residual]
    | cons v vs => exact add_nonneg (mul_self_nonneg _) (ih vs)

theorem residual_zero_iff (a : List (K × K)) (b : List K) (x y : K) :
    residual a b x y = 0 ↔ ∀ q ∈ a.zip b, q.1.1 * x + q.1.2 * y = q.2 := by
  induction a generalizing b with
  | nil => cases b <;> simp [residual]
  | cons p ps ih =>
    cases b with
    | nil => simp [residual]
    | cons v vs =>
      simp only [residual, List.zip_cons_cons, List.mem_cons, forall_eq_or_imp]
      rw [add_eq_zero_iff_of_nonneg (mul_self_nonneg _) (residual_nonneg _ _ _ _), ih, mul_self_eq_zero, sub_eq_zero]

/-! ## C65: the motion has the announced sign and axes -/

/-- All the cells are finite. -/
def FiniteWin (w : Win K) (v : Nat → Nat → K) : Prop := ∀ i < w.h, ∀ j < w.w, w.get i j = .fin (v i j)

/-- `gradient1` on finite values. -/
def grad (n : Nat) (g : Nat → K) (i : Nat) : K :=
  if i = 0 then g 1 + -g 0 else if i + 1 = n then g (n - 1) + -g (n - 2) else (g (i + 1) + -g (i - 1)) * (1 / 2)

theorem gradient1_fin {n : Nat} {g : Nat → F K} {v : Nat → K} (hn : 2 ≤ n) (h : ∀ i < n, g i = .fin (v i)) (i : Nat)
    (hi : i < n) : gradient1 n g i = .fin (grad n v i) := by
  unfold gradient1 grad
  split_ifs with h0 h1
  · rw [h 1 (by omega), h 0 (by omega)]; rfl
  · rw [h (n - 1) (by omega), h (n - 2) (by omega)]; rfl
  · rw [h (i + 1) (by omega), h (i - 1) (by omega)]; rfl

/-- The cells of a window, as positions. -/
theorem cells_in {w : Win K} {p : Nat × Nat} (hp : p ∈ cellsOf w) : p.1 < w.h ∧ p.2 < w.w := by
  unfold cellsOf at hp
  rw [List.mem_map] at hp
  obtain ⟨k, hk, rfl⟩ := hp
  rw [List.mem_range] at hk
  have hw : 0 < w.w := Nat.pos_of_ne_zero fun h => by simp [h] at hk
  exact ⟨(Nat.div_lt_iff_lt_mul hw).2 hk, Nat.mod_lt _ hw⟩

theorem cells_complete {w : Win K} {i j : Nat} (hi : i < w.h) (hj : j < w.w) : (i, j) ∈ cellsOf w := by
  unfold cellsOf
  rw [List.mem_map]
  refine ⟨i * w.w + j, ?_, ?_⟩
  · rw [List.mem_range]
    calc i * w.w + j < i * w.w + w.w := Nat.add_lt_add_left hj _
      _ = (i + 1) * w.w := by ring
      _ ≤ w.h * w.w := Nat.mul_le_mul_right _ hi
  · rw [Nat.mul_comm, Nat.mul_add_div (by omega), Nat.div_eq_of_lt hj, Nat.mul_add_mod, Nat.mod_eq_of_lt hj, Nat.add_zero]

theorem lk_exact {e : Ext K} {invalid : F K} (he : LeastSquares e) {l r : Win K} {lv rv : Nat → Nat → K}
    (hl : FiniteWin l lv) (hr : FiniteWin ⟨l.h, l.w, r.get⟩ rv) (h1 : 2 ≤ l.h) (h2 : 2 ≤ l.w) (x y : K)
    (hsol : ∀ i < l.h, ∀ j < l.w,
      grad l.w (fun j => lv i j) j * x + grad l.h (fun i => lv i j) i * y = rv i j + -lv i j)
    (huniq : ∀ x' y', (∀ i < l.h, ∀ j < l.w,
      grad l.w (fun j => lv i j) j * x' + grad l.h (fun i => lv i j) i * y' = rv i j + -lv i j) →
      x' * x' + y' * y' ≤ x * x + y * y → x' = x ∧ y' = y) :
    lucasKanade e invalid l r = (.fin y, .fin x) := by
  set A : List (K × K) := (cellsOf l).map fun p =>
    (grad l.w (fun j => lv p.1 j) p.2, grad l.h (fun i => lv i p.2) p.1) with hA
  set B : List K := (cellsOf l).map fun p => rv p.1 p.2 + -lv p.1 p.2 with hB
  have eA : gradMatrix l = A.map fun p => (.fin p.1, .fin p.2) := by
    unfold gradMatrix
    rw [hA, List.map_map]
    apply List.map_congr_left
    intro p hp
    obtain ⟨p1, p2⟩ := cells_in hp
    simp only [Function.comp]
    rw [gradient1_fin h2 (fun j hj => hl p.1 p1 j hj) _ p2, gradient1_fin h1 (fun i hi => hl i hi p.2 p2) _ p1]
  have eB : timeMatrix l r = B.map .fin := by
    unfold timeMatrix
    rw [hB, List.map_map]
    apply List.map_congr_left
    intro p hp
    obtain ⟨p1, p2⟩ := cells_in hp
    simp only [Function.comp]
    rw [hl p.1 p1 p.2 p2, hr p.1 p1 p.2 p2]
    rfl
  obtain ⟨x', y', hs, hmin, hnorm⟩ := he A B (by rw [hA, hB]; simp)
  have zip : A.zip B = (cellsOf l).map fun p =>
      ((grad l.w (fun j => lv p.1 j) p.2, grad l.h (fun i => lv i p.2) p.1), rv p.1 p.2 + -lv p.1 p.2) := by
    rw [hA, hB, List.zip_map, List.zip_eq_zipWith, List.zipWith_self, List.map_map]
    rfl
  have z : residual A B x y = 0 := by
    rw [residual_zero_iff, zip]
    intro q hq
    rw [List.mem_map] at hq
    obtain ⟨p, hp, rfl⟩ := hq
    obtain ⟨p1, p2⟩ := cells_in hp
    exact hsol p.1 p1 p.2 p2
  have z' : residual A B x' y' = 0 := le_antisymm (z ▸ hmin x y) (residual_nonneg _ _ _ _)
  have hn := hnorm x y (by rw [z, z'])
  obtain ⟨rfl, rfl⟩ := huniq x' y' (by
    intro i hi j hj
    rw [residual_zero_iff, zip] at z'
    exact z' _ (List.mem_map.2 ⟨(i, j), cells_complete hi hj, rfl⟩)) hn
  unfold lucasKanade
  rw [eA, eB, hs]
  rfl

/-- C65: two windows with the same cells give a zero motion. -/
theorem C65_identical {e : Ext K} {invalid : F K} (he : LeastSquares e) {w w' : Win K} {v : Nat → Nat → K}
    (hw : FiniteWin w v) (hw' : FiniteWin ⟨w.h, w.w, w'.get⟩ v) (h1 : 2 ≤ w.h) (h2 : 2 ≤ w.w) :
    lucasKanade e invalid w w' = (.fin 0, .fin 0) := by
  apply lk_exact he hw hw' h1 h2
  · intro i _ j _
    ring
  · intro x' y' _ hn
    have a := mul_self_nonneg x'
    have b := mul_self_nonneg y'
    constructor
    · exact mul_self_eq_zero.1 (by linarith)
    · exact mul_self_eq_zero.1 (by linarith)

theorem grad_ramp {n : Nat} (hn : 2 ≤ n) (a q : K) (i : Nat) (hi : i < n) : grad n (fun k => a + q * (k : K)) i = q := by
  unfold grad
  split_ifs with h0 h1
  · push_cast; ring
  · obtain ⟨m, rfl⟩ : ∃ m, n = m + 2 := ⟨n - 2, by omega⟩
    have : m + 2 - 1 = m + 1 := by omega
    have h' : m + 2 - 2 = m := by omega
    rw [this, h']
    push_cast; ring
  · obtain ⟨m, rfl⟩ : ∃ m, i = m + 1 := ⟨i - 1, by omega⟩
    have : m + 1 - 1 = m := by omega
    rw [this]
    push_cast; ring

/-- C65: on a plane `a + p * row + q * col` displaced along its gradient, the motion `(v, u)` (rows, columns) such that
`right(i, j) = left(i + v, j + u)` is found exactly: the first component is the row motion and the second the column motion. -/
theorem C65_plane {e : Ext K} {invalid : F K} (he : LeastSquares e) {l r : Win K} (h1 : 2 ≤ l.h) (h2 : 2 ≤ l.w)
    (a p q t : K) (hl : FiniteWin l fun i j => a + p * (i : K) + q * (j : K))
    (hr : FiniteWin ⟨l.h, l.w, r.get⟩ fun i j => a + p * ((i : K) + t * p) + q * ((j : K) + t * q)) :
    lucasKanade e invalid l r = (.fin (t * p), .fin (t * q)) := by
  have gx : ∀ i : Nat, ∀ j < l.w, grad l.w (fun j => a + p * (i : K) + q * (j : K)) j = q := fun i j hj =>
    grad_ramp h2 (a + p * (i : K)) q j hj
  have gy : ∀ i < l.h, ∀ j : Nat, grad l.h (fun i => a + p * (i : K) + q * (j : K)) i = p := by
    intro i hi j
    have := grad_ramp h1 (a + q * (j : K)) p i hi
    rwa [show (fun k : Nat => a + q * (j : K) + p * (k : K)) = fun i : Nat => a + p * (i : K) + q * (j : K) from
      funext fun k => by ring] at this
  apply lk_exact he hl hr h1 h2
  · intro i hi j hj
    rw [gx i j hj, gy i hi j]
    ring
  · intro x' y' hs hn
    have := hs 0 (by omega) 0 (by omega)
    rw [gx 0 0 (by omega), gy 0 (by omega) 0] at this
    have hd : (x' - t * q) * (x' - t * q) + (y' - t * p) * (y' - t * p) ≤ 0 := by
      have e1 : (x' - t * q) * (x' - t * q) + (y' - t * p) * (y' - t * p) =
        (x' * x' + y' * y') - 2 * t * (q * x' + p * y') + (t * q * (t * q) + t * p * (t * p)) := by ring
      rw [e1, this]
      have e2 : (x' * x' + y' * y') - 2 * t * (a + p * (((0 : Nat) : K) + t * p) + q * (((0 : Nat) : K) + t * q) +
          -(a + p * ((0 : Nat) : K) + q * ((0 : Nat) : K))) + (t * q * (t * q) + t * p * (t * p)) =
          (x' * x' + y' * y') - (t * q * (t * q) + t * p * (t * p)) := by push_cast; ring
      rw [e2]
      linarith
    have a1 := mul_self_nonneg (x' - t * q)
    have a2 := mul_self_nonneg (y' - t * p)
    constructor
    · exact sub_eq_zero.1 (mul_self_eq_zero.1 (by linarith))
    · exact sub_eq_zero.1 (mul_self_eq_zero.1 (by linarith))

end Verif.Props
