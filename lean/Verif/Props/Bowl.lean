import Verif.Spec.Bowl
import Verif.Props.Dichotomised

/-!
# C123: a dichotomy finds an optimum between the samples
-/

namespace Verif.Props

open Verif Verif.Config Verif.Machine Verif.ImgTools Verif.MatchingCost Verif.Disparity Verif.Run Verif.Main Verif.Spec Verif.Save
  Verif.Statistics

set_option linter.unusedSectionVars false

variable {K : Type} [Field K] [LinearOrder K] [IsStrictOrderedRing K] [FloorRing K]

/-! ### The kernel of Keys reproduces the quadratic functions -/

theorem keys_weights {t : K} (h0 : 0 ≤ t) (h1 : t < 1) :
    keys (t + 1) = -(1 / 2) * (t + 1) ^ 3 + 5 / 2 * (t + 1) ^ 2 - 4 * (t + 1) + 2 ∧ keys t = 3 / 2 * t ^ 3 - 5 / 2 * t ^ 2 + 1 ∧
    keys (t - 1) = 3 / 2 * (1 - t) ^ 3 - 5 / 2 * (1 - t) ^ 2 + 1 ∧
    keys (t - 2) = -(1 / 2) * (2 - t) ^ 3 + 5 / 2 * (2 - t) ^ 2 - 4 * (2 - t) + 2 := by
  refine ⟨?_, ?_, ?_, ?_⟩
  · unfold keys
    rw [abs_of_nonneg (by linarith)]
    by_cases h : t + 1 ≤ 1
    · obtain rfl : t = 0 := le_antisymm (by linarith) h0
      rw [if_pos h]
      norm_num
    · rw [if_neg h, if_pos (by linarith)]
  · unfold keys
    rw [abs_of_nonneg h0, if_pos h1.le]
  · unfold keys
    rw [abs_sub_comm, abs_of_pos (by linarith), if_pos (by linarith)]
  · unfold keys
    rw [abs_sub_comm, abs_of_pos (by linarith), if_neg (by linarith), if_pos (by linarith)]

/-- The weights of the kernel give back a quadratic function from its values at the four samples. -/
theorem keys_quadratic {t : K} (h0 : 0 ≤ t) (h1 : t < 1) (a u e : K) :
    ∑ b ∈ Finset.range 4, keysKernel.weight t b * (a * ((b : K) - 1 - u) ^ 2 + e) = a * (t - u) ^ 2 + e := by
  obtain ⟨k0, k1, k2, k3⟩ := keys_weights h0 h1
  simp only [Finset.sum_range_succ, Finset.sum_range_zero, keysKernel]
  push_cast
  rw [show t - (0 - 1) = t + 1 by ring, show t - (1 - 1) = t by ring, show t - (2 - 1) = t - 1 by ring, show t - (3 - 1) = t - 2 by ring,
    k0, k1, k2, k3]
  ring

theorem node_keys (n : Nat) (x : K) (a : Nat) : node keysKernel n x a = ((x * n - Int.fract (x * n)) + ((a : K) - 1)) / n := by
  unfold node
  have := Int.self_sub_fract (x * n)
  rw [this]
  simp only [keysKernel]
  push_cast
  ring

/-- The value interpolated from the samples of a quadratic surface is the value of the surface. -/
theorem filtered_bowl {n : Nat} (hn : 0 < n) {cost : K → K → F K} {a b e x0 y0 x y : K}
    (h : ∀ i < 4, ∀ j < 4, cost (node keysKernel n x i) (node keysKernel n y j) =
      .fin (bowlAt a b e x0 y0 (node keysKernel n x i) (node keysKernel n y j))) :
    filtered keysKernel n cost x y = .fin (bowlAt a b e x0 y0 x y) := by
  have hn' : (0 : K) < n := by exact_mod_cast hn
  have s4 : (keysKernel (K := K)).size = 4 := rfl
  unfold filtered
  rw [if_neg, s4]
  · congr 1
    have key : ∀ z z0 c f : K, ∑ i ∈ Finset.range 4, keysKernel.weight (Int.fract (z * n)) i * (c * (node keysKernel n z i - z0) ^ 2 + f) =
        c * (z - z0) ^ 2 + f := by
      intro z z0 c f
      have := keys_quadratic (Int.fract_nonneg (z * n)) (Int.fract_lt_one (z * n)) (c / n ^ 2) (z0 * n - (z * n - Int.fract (z * n))) f
      rw [show c * (z - z0) ^ 2 + f = c / n ^ 2 * (Int.fract (z * n) - (z0 * n - (z * n - Int.fract (z * n)))) ^ 2 + f by
        rw [show Int.fract (z * n) - (z0 * n - (z * n - Int.fract (z * n))) = n * (z - z0) by ring]
        field_simp, ← this]
      refine Finset.sum_congr rfl fun i _ => ?_
      congr 1
      rw [node_keys]
      field_simp
      ring
    calc _ = ∑ i ∈ Finset.range 4, ∑ j ∈ Finset.range 4, keysKernel.weight (Int.fract (x * n)) i *
          (keysKernel.weight (Int.fract (y * n)) j *
            (b * (node keysKernel n y j - y0) ^ 2 + (a * (node keysKernel n x i - x0) ^ 2 + e))) := by
          refine Finset.sum_congr rfl fun i hi => Finset.sum_congr rfl fun j hj => ?_
          rw [h i (Finset.mem_range.1 hi) j (Finset.mem_range.1 hj)]
          simp only [amount, bowlAt]
          ring
      _ = ∑ i ∈ Finset.range 4, keysKernel.weight (Int.fract (x * n)) i *
          (a * (node keysKernel n x i - x0) ^ 2 + (b * (y - y0) ^ 2 + e)) := by
          refine Finset.sum_congr rfl fun i _ => ?_
          rw [← Finset.mul_sum, key]
          ring
      _ = bowlAt a b e x0 y0 x y := by
          rw [key]
          unfold bowlAt
          ring
  · rintro ⟨i, hi, j, hj, hx⟩
    rw [h i hi j hj] at hx
    simp at hx

/-! ### The search -/

theorem le_of_mul_le_mul_left_of_neg {a x y : K} (ha : a < 0) (h : a * y ≤ a * x) : x ≤ y :=
  (mul_le_mul_left_of_neg ha).1 h

/-- The best of two values of the surface which differ along one axis is the nearest one. -/
theorem bowl_nearer {me : Measure} {a b e x0 y0 x x' y y' : K} (ho : Opens me a b)
    (h : AtLeastAsGood me (.fin (bowlAt a b e x0 y0 x y)) (.fin (bowlAt a b e x0 y0 x' y'))) :
    (y = y' → |x - x0| ≤ |x' - x0|) ∧ (x = x' → |y - y0| ≤ |y' - y0|) := by
  cases me
  · have h' : bowlAt a b e x0 y0 x' y' ≤ bowlAt a b e x0 y0 x y := of_decide_eq_true h
    unfold bowlAt at h'
    obtain ⟨h1, h2⟩ := ho
    constructor
    · rintro rfl
      exact sq_le_sq.1 (le_of_mul_le_mul_left_of_neg h1 (by linarith))
    · rintro rfl
      exact sq_le_sq.1 (le_of_mul_le_mul_left_of_neg h2 (by linarith))
  · have h' : bowlAt a b e x0 y0 x y ≤ bowlAt a b e x0 y0 x' y' := of_decide_eq_true h
    unfold bowlAt at h'
    obtain ⟨h1, h2⟩ := ho
    constructor
    · rintro rfl
      exact sq_le_sq.1 (le_of_mul_le_mul_left (by linarith) h1)
    · rintro rfl
      exact sq_le_sq.1 (le_of_mul_le_mul_left (by linarith) h2)

/-- One of the three moves is within half a step of any point within a step. -/
theorem nearest_move {h x x0 : K} (hh : 0 ≤ h) (hx : |x - x0| ≤ h) : ∃ s : Int, (-1 ≤ s ∧ s ≤ 1) ∧ |x + s * h - x0| ≤ h / 2 := by
  rw [abs_le] at hx
  rcases le_total (x - x0) (-(h / 2)) with h1 | h1
  · refine ⟨1, by decide, ?_⟩
    rw [abs_le]
    push_cast
    constructor <;> linarith
  · rcases le_total (x - x0) (h / 2) with h2 | h2
    · refine ⟨0, by decide, ?_⟩
      rw [abs_le]
      push_cast
      constructor <;> linarith
    · refine ⟨-1, by decide, ?_⟩
      rw [abs_le]
      push_cast
      constructor <;> linarith

/-- On a quadratic surface the search ends at most half of its last step away from the optimum, in both directions. -/
theorem path_bowl {me : Measure} {val : K → K → F K} {it k j : Nat} {a b e x0 y0 xs ys x y x1 y1 : K} {v v1 : F K} (ho : Opens me a b)
    (hval : ∀ x y, |x - xs| < 1 / 2 ^ k → |y - ys| < 1 / 2 ^ k → val x y = .fin (bowlAt a b e x0 y0 x y))
    (p : Path me val it j x y v x1 y1 v1) (hv : v = .fin (bowlAt a b e x0 y0 x y))
    (hx : |x - xs| ≤ 1 / 2 ^ k - 1 / 2 ^ j) (hy : |y - ys| ≤ 1 / 2 ^ k - 1 / 2 ^ j)
    (hx0 : |x - x0| ≤ 1 / 2 ^ (j + 1)) (hy0 : |y - y0| ≤ 1 / 2 ^ (j + 1)) :
    |x1 - x0| ≤ 1 / 2 ^ (max j it + 1) ∧ |y1 - y0| ≤ 1 / 2 ^ (max j it + 1) ∧ v1 = .fin (bowlAt a b e x0 y0 x1 y1) := by
  induction p with
  | @stop j x y v h =>
    rw [max_eq_left h]
    exact ⟨hx0, hy0, hv⟩
  | @move j x y v s x' y' v' h hs hp ih =>
    have hp1 : (0 : K) < 1 / 2 ^ (j + 1) := by positivity
    have hh := half_step (K := K) j
    have hh2 := half_step (K := K) (j + 1)
    have near : ∀ t, Around t → |x + t.1 * (1 / 2 ^ (j + 1)) - xs| ≤ 1 / 2 ^ k - 1 / 2 ^ (j + 1) ∧
        |y + t.2 * (1 / 2 ^ (j + 1)) - ys| ≤ 1 / 2 ^ k - 1 / 2 ^ (j + 1) := by
      intro t ht
      have n1 := (around_near ht (k := j) x).1
      have n2 := (around_near ht (k := j) y).2
      have m1 := abs_add_le (x + t.1 * (1 / 2 ^ (j + 1)) - x) (x - xs)
      have m2 := abs_add_le (y + t.2 * (1 / 2 ^ (j + 1)) - y) (y - ys)
      rw [show x + t.1 * (1 / 2 ^ (j + 1)) - x + (x - xs) = x + t.1 * (1 / 2 ^ (j + 1)) - xs by ring] at m1
      rw [show y + t.2 * (1 / 2 ^ (j + 1)) - y + (y - ys) = y + t.2 * (1 / 2 ^ (j + 1)) - ys by ring] at m2
      constructor <;> linarith
    have tv : ∀ t, Around t → tried val (1 / 2 ^ (j + 1)) x y v t =
        .fin (bowlAt a b e x0 y0 (x + t.1 * (1 / 2 ^ (j + 1))) (y + t.2 * (1 / 2 ^ (j + 1)))) := by
      intro t ht
      unfold tried
      split_ifs with h0
      · subst h0
        rw [hv]
        simp
      · obtain ⟨n1, n2⟩ := near t ht
        exact hval _ _ (by linarith) (by linarith)
    obtain ⟨sx, hsx, dx⟩ := nearest_move hp1.le hx0
    obtain ⟨sy, hsy, dy⟩ := nearest_move hp1.le hy0
    have ax : Around (sx, s.2) := ⟨hsx, hs.around.2⟩
    have ay : Around (s.1, sy) := ⟨hs.around.1, hsy⟩
    have bx := hs.best _ ax (by rw [tv _ ax]; simp)
    have bY := hs.best _ ay (by rw [tv _ ay]; simp)
    rw [tv _ hs.around, tv _ ax] at bx
    rw [tv _ hs.around, tv _ ay] at bY
    have cx := (bowl_nearer ho bx).1 rfl
    have cy := (bowl_nearer ho bY).2 rfl
    obtain ⟨n1, n2⟩ := near s hs.around
    rw [show max j it = max (j + 1) it by omega]
    exact ih (tv _ hs.around) n1 n2 (by linarith) (by linarith)

/-! ### One pixel -/

theorem good_through {me : Measure} {u v w : F K} (h : AtLeastAsGood me u v) (h' : AtLeastAsGood me v w) : AtLeastAsGood me u w := by
  cases me <;> cases u <;> cases v <;> cases w <;> simp only [AtLeastAsGood, F.le, decide_eq_true_eq] at h h' ⊢ <;>
    first | trivial | linarith

/-- A sample within half a sample of a point is a nearest one. -/
theorem nearest_sample {n : Nat} (hn : 0 < n) {X m : Int} {x x0 : K} (hX : |(X : K) / n - x0| ≤ 1 / 2 / n) (hm : x * n = m) :
    |(X : K) / n - x0| ≤ |x - x0| := by
  have hn' : (0 : K) < n := by exact_mod_cast hn
  have ex : x = (m : K) / n := by rw [← hm]; field_simp
  by_cases h : m = X
  · rw [ex, h]
  · have h1 : (1 : K) ≤ |(m : K) - X| := by
      have : (1 : Int) ≤ |m - X| := Int.one_le_abs (sub_ne_zero.2 h)
      exact_mod_cast this
    have h2 : 1 / (n : K) ≤ |x - (X : K) / n| := by
      rw [ex, ← sub_div, abs_div, abs_of_pos hn']
      gcongr
    have h3 := abs_add_le (x - x0) (x0 - (X : K) / n)
    rw [sub_add_sub_cancel, abs_sub_comm x0] at h3
    have h4 : 1 / 2 / (n : K) + 1 / 2 / n = 1 / n := by ring
    linarith

/-- The best pair of a quadratic surface is within half a sample of its optimum. -/
theorem bowl_winner {me : Measure} {n : Nat} (hn : 0 < n) {dRow dCol : Disp} {r c : Int} {cost : K → K → F K} {invalid r0 c0 s0 : F K}
    {a b e x0 y0 : K} (bp : BestPair me (AskedPair dRow dCol n r c) cost invalid r0 c0 s0)
    (hb : BowlCost me n (AskedPair dRow dCol n r c) cost a b e x0 y0) (hr : OptimumInside dRow n r c x0) (hc : OptimumInside dCol n r c y0) :
    ∃ X Y : Int, r0 = .fin ((X : K) / n) ∧ c0 = .fin ((Y : K) / n) ∧ |(X : K) / n - x0| ≤ 1 / 2 / n ∧ |(Y : K) / n - y0| ≤ 1 / 2 / n := by
  have hn' : (0 : K) < n := by exact_mod_cast hn
  have rd : ∀ z : K, |((round (z * n) : Int) : K) / n - z| ≤ 1 / 2 / n := by
    intro z
    have h := abs_sub_round (z * n)
    rw [show ((round (z * n) : Int) : K) / n - z = -((z * n - round (z * n)) / n) by field_simp; ring, abs_neg, abs_div, abs_of_pos hn']
    gcongr
  have h5 : (1 : K) / 2 / n ≤ 5 / 2 / n := by gcongr; norm_num
  set X0 : Int := round (x0 * n) with hX0
  set Y0 : Int := round (y0 * n) with hY0
  have bX := rd x0
  have bY := rd y0
  rw [← hX0] at bX
  rw [← hY0] at bY
  have cen : cost ((X0 : K) / n) ((Y0 : K) / n) = .fin (bowlAt a b e x0 y0 ((X0 : K) / n) ((Y0 : K) / n)) :=
    hb.near _ _ (bX.trans h5) (bY.trans h5)
  have mul : ∀ Z : Int, (Z : K) / n * n = Z := fun Z => by field_simp
  have asked : AskedPair dRow dCol n r c ((X0 : K) / n) ((Y0 : K) / n) := by
    have b1 := abs_le.1 bX
    have b2 := abs_le.1 bY
    have l1 := hr.low
    have l2 := hr.high
    have l3 := hc.low
    have l4 := hc.high
    exact ⟨⟨X0, Y0, mul _, mul _⟩, ⟨by linarith, by linarith⟩, by linarith, by linarith⟩
  have ex : ∃ dr dc, AskedPair dRow dCol n r c dr dc ∧ cost dr dc ≠ .nan := ⟨_, _, asked, by rw [cen]; simp⟩
  obtain ⟨dr, dc, e1, e2, ⟨dc', q1, q2⟩, ⟨dr', q3, q4⟩, -⟩ := bp.smallest ex
  have best := bp.best ex
  have sb : AtLeastAsGood me s0 (.fin (bowlAt a b e x0 y0 ((X0 : K) / n) ((Y0 : K) / n))) := by
    rw [← cen]
    exact best.2 _ ⟨by rw [cen]; simp, _, _, asked, rfl⟩
  have key : ∀ x y, AskedPair dRow dCol n r c x y → cost x y = s0 → |x - x0| ≤ 1 / 2 / n ∧ |y - y0| ≤ 1 / 2 / n := by
    intro x y h1 h2
    have g1 : AtLeastAsGood me (.fin (bowlAt a b e x0 y0 x y)) s0 := by
      rcases hb.above x y h1 with h | h
      · rw [h] at h2
        exact absurd h2.symm best.1.1
      · rwa [h2] at h
    have g2 := good_through g1 sb
    obtain ⟨⟨m, m', hm, hm'⟩, -⟩ := h1
    have n1 := nearest_sample hn bX hm
    have n2 := nearest_sample hn bY hm'
    have n1' := sq_le_sq.2 n1
    have n2' := sq_le_sq.2 n2
    have ho := hb.opens
    constructor
    · refine le_trans (bowl_nearer (y := (Y0 : K) / n) (y' := (Y0 : K) / n) ho (good_through ?_ g2) |>.1 rfl) bX
      cases me
      · refine decide_eq_true ?_
        unfold bowlAt
        nlinarith [mul_le_mul_of_nonpos_left n2' ho.2.le]
      · refine decide_eq_true ?_
        unfold bowlAt
        nlinarith [mul_le_mul_of_nonneg_left n2' ho.2.le]
    · refine le_trans (bowl_nearer (x := (X0 : K) / n) (x' := (X0 : K) / n) ho (good_through ?_ g2) |>.2 rfl) bY
      cases me
      · refine decide_eq_true ?_
        unfold bowlAt
        nlinarith [mul_le_mul_of_nonpos_left n1' ho.1.le]
      · refine decide_eq_true ?_
        unfold bowlAt
        nlinarith [mul_le_mul_of_nonneg_left n1' ho.1.le]
  obtain ⟨⟨m, -, hm, -⟩, -⟩ := id q1
  obtain ⟨⟨-, m', -, hm'⟩, -⟩ := id q3
  have f1 : dr = (m : K) / n := by rw [← hm]; field_simp
  have f2 : dc = (m' : K) / n := by rw [← hm']; field_simp
  refine ⟨m, m', by rw [e1, f1], by rw [e2, f2], ?_, ?_⟩
  · rw [← f1]
    exact (key _ _ q1 q2).1
  · rw [← f2]
    exact (key _ _ q3 q4).2

/-- The samples of the kernel of Keys near a sample are at most two samples away from it. -/
theorem node_near {n : Nat} (hn : 0 < n) {X : Int} {x : K} (hx : |x - (X : K) / n| < 1 / n) {a : Nat} (ha : a < 4) :
    ∃ Z : Int, node keysKernel n x a = (Z : K) / n ∧ |(Z : K) / n - (X : K) / n| ≤ 2 / n := by
  have hn' : (0 : K) < n := by exact_mod_cast hn
  refine ⟨⌊x * n⌋ - 1 + a, rfl, ?_⟩
  have b3 : |x * n - X| < 1 := by
    have : x * n - X = (x - (X : K) / n) * n := by field_simp
    rw [this, abs_mul, abs_of_pos hn']
    calc |x - (X : K) / n| * n < 1 / n * n := mul_lt_mul_of_pos_right hx hn'
      _ = 1 := by field_simp
  rw [abs_lt] at b3
  have f1 : X - 1 ≤ ⌊x * n⌋ := by
    rw [Int.le_floor]
    push_cast
    linarith
  have f2 : ⌊x * n⌋ ≤ X := by
    have := Int.floor_le (x * n)
    have h2 : ((⌊x * n⌋ : Int) : K) < ((X + 1 : Int) : K) := by
      push_cast
      linarith
    have : ⌊x * n⌋ < X + 1 := by exact_mod_cast h2
    omega
  have : |⌊x * n⌋ - 1 + (a : Int) - X| ≤ 2 := by
    rw [abs_le]
    omega
  rw [← sub_div, abs_div, abs_of_pos hn']
  gcongr
  exact_mod_cast this

/-- The pixel of a search on a quadratic surface. -/
theorem searched_bowl {me : Measure} {n k it : Nat} (hn : n = 2 ^ k) {dRow dCol : Disp} {r c fr lr fc lc : Int} {cost : K → K → F K}
    {invalid r0 c0 s0 row col score : F K} {a b e x0 y0 : K} (bp : BestPair me (AskedPair dRow dCol n r c) cost invalid r0 c0 s0)
    (sp : SearchedPixel me (seen dRow dCol fr lr fc lc r c cost) (filtered keysKernel n (seen dRow dCol fr lr fc lc r c cost)) k it
      (initAt dRow r c - dRow.range) (initAt dRow r c + dRow.range) (initAt dCol r c - dCol.range) (initAt dCol r c + dCol.range) invalid r0 c0
      row col score)
    (hb : BowlCost me n (AskedPair dRow dCol n r c) cost a b e x0 y0) (hr : OptimumInside dRow n r c x0) (hc : OptimumInside dCol n r c y0)
    (hR : ∀ x, |x - x0| ≤ 5 / 2 / n → ReadDisp dRow fr lr r c x) (hC : ∀ y, |y - y0| ≤ 5 / 2 / n → ReadDisp dCol fc lc r c y)
    (hinv : ∀ x y, AskedPair dRow dCol n r c x y → invalid ≠ .fin x ∧ invalid ≠ .fin y) :
    ∃ x y, (row = .fin x ∧ col = .fin y ∧ score = .fin (bowlAt a b e x0 y0 x y)) ∧ |x - x0| ≤ 1 / 2 ^ (max k it + 1) ∧
      |y - y0| ≤ 1 / 2 ^ (max k it + 1) := by
  have hn0 : 0 < n := by rw [hn]; positivity
  have hn' : (0 : K) < n := by exact_mod_cast hn0
  obtain ⟨X, Y, rfl, rfl, bX, bY⟩ := bowl_winner hn0 bp hb hr hc
  have h5 : (1 : K) / 2 / n ≤ 5 / 2 / n := by gcongr; norm_num
  have mul : ∀ Z : Int, (Z : K) / n * n = Z := fun Z => by field_simp
  have b1 := abs_le.1 bX
  have b2 := abs_le.1 bY
  have l1 := hr.low
  have l2 := hr.high
  have l3 := hc.low
  have l4 := hc.high
  have asked : AskedPair dRow dCol n r c ((X : K) / n) ((Y : K) / n) :=
    ⟨⟨X, Y, mul _, mul _⟩, ⟨by linarith, by linarith⟩, by linarith, by linarith⟩
  obtain ⟨i1, i2⟩ := hinv _ _ asked
  have see : ∀ U V : Int, |(U : K) / n - x0| ≤ 5 / 2 / n → |(V : K) / n - y0| ≤ 5 / 2 / n →
      seen dRow dCol fr lr fc lc r c cost ((U : K) / n) ((V : K) / n) = .fin (bowlAt a b e x0 y0 ((U : K) / n) ((V : K) / n)) := by
    intro U V hU hV
    unfold seen
    rw [if_pos ⟨hR _ hU, hC _ hV⟩, hb.near _ _ hU hV]
  have cen := see X Y (bX.trans h5) (bY.trans h5)
  have notEnd : ¬ (AtEnd (initAt dRow r c - dRow.range) (initAt dRow r c + dRow.range) (.fin ((X : K) / n)) ∨
      AtEnd (initAt dCol r c - dCol.range) (initAt dCol r c + dCol.range) (.fin ((Y : K) / n))) := by
    rintro ((h | h) | (h | h)) <;> simp only [F.fin.injEq] at h <;> linarith
  obtain ⟨x', y', v', rfl, rfl, rfl, p⟩ := sp.searched _ _ rfl rfl (Ne.symm i1) (Ne.symm i2) notEnd (by rw [cen]; simp)
  have nk : (1 : K) / 2 ^ k = 1 / n := by rw [hn]; push_cast; rfl
  have half : (1 : K) / 2 ^ (k + 1) = 1 / 2 / n := by rw [hn]; push_cast; rw [pow_succ]; field_simp
  have hval : ∀ x y, |x - (X : K) / n| < 1 / 2 ^ k → |y - (Y : K) / n| < 1 / 2 ^ k →
      filtered keysKernel n (seen dRow dCol fr lr fc lc r c cost) x y = .fin (bowlAt a b e x0 y0 x y) := by
    intro x y hx hy
    rw [nk] at hx hy
    refine filtered_bowl hn0 fun i hi j hj => ?_
    obtain ⟨U, u1, u2⟩ := node_near hn0 hx hi
    obtain ⟨V, v1, v2⟩ := node_near hn0 hy hj
    rw [u1, v1]
    have e5 : (5 : K) / 2 / n = 2 / n + 1 / 2 / n := by ring
    refine see U V ?_ ?_
    · have := abs_sub_le ((U : K) / n) ((X : K) / n) x0
      linarith
    · have := abs_sub_le ((V : K) / n) ((Y : K) / n) y0
      linarith
  obtain ⟨q1, q2, q3⟩ := path_bowl hb.opens hval p cen (by simp) (by simp) (by rw [half]; exact bX) (by rw [half]; exact bY)
  exact ⟨x', y', ⟨rfl, rfl, q3⟩, q1, q2⟩

/-! ### The rasters -/

/-- Around an optimum inside, all the samples are read. -/
theorem around_read {d : Disp} {left : Img K} {n : Nat} {r c f l : Int} {x0 : K} (h : Extent d left f l) (o : OptimumInside d n r c x0) {x : K}
    (hx : |x - x0| ≤ 5 / 2 / n) : ReadDisp d f l r c x := by
  rcases o.around with ⟨v, hv⟩ | ⟨h1, h2⟩
  · have e : ∀ a b, initAt d a b = v := fun a b => by simp [initAt, hv]
    obtain ⟨i, -, j, -, h1⟩ := h.reached
    obtain ⟨i', -, j', -, h2⟩ := h.reached'
    rw [e] at h1 h2
    unfold ReadDisp
    rw [e, h1, h2]
    by_cases h3 : (f : K) ≤ x
    · by_cases h4 : x ≤ (l : K)
      · exact .inl ⟨h3, h4⟩
      · exact .inr (.inr (not_le.1 h4))
    · exact .inr (.inl (not_le.1 h3))
  · have := abs_le.1 hx
    exact .inl ⟨by linarith, by linarith⟩

/-- The execution of a dichotomy with the bicubic filter: at each pixel where the costs are those of a quadratic surface around its optimum, the
two disparities written are at most half of the last step away from the optimum, and the score is the value of the surface there. -/
theorem C123_quadratic_optimum (w : World K) (user p0 mc inp l r f : Fields) (out : List (Written K)) (H W : Nat) (dRow dCol : Disp)
    (rf rl cf cl : Int) (sr sc : Nat) (invalid : F K) (n it : Nat) (me : Measure) (pc : Pandora.Cost K) (hw : user.wf)
    (hdisk : DiskContract w H W) (hpan : PandoraContract w) (hkeeps : PandoraKeeps w.pandora) (hzoom : w.run.zoom = zoomLinear)
    (hu : user.get "pipeline" = some (.obj p0)) (he : p0.get "estimation" = none) (href : p0.get "refinement" = some (.obj f))
    (hm : f.get "refinement_method" = some (.str "dichotomy")) (hit : IterationsIs f it) (hker : KernelIs w f it keysKernel)
    (hmc : p0.get "matching_cost" = some (.obj mc)) (hmat : MatcherIs w mc n me pc)
    (ask : Asks w user H W dRow dCol rf rl cf cl sr sc invalid) (hne : rf < rl ∧ rl < H ∧ cf < cl ∧ cl < W)
    (hi : user.get "input" = some (.obj inp)) (hleft : inp.get "left" = some (.obj l)) (hright : inp.get "right" = some (.obj r))
    (h : Main.main w user = (out, none)) :
    ∃ files rest roi left right gmin gmax, ∃ (k : Nat) (displaced : K → Img K), out = .rasters files :: rest ∧ n = 2 ^ k ∧
      (roi = none ↔ user.get "ROI" = none) ∧ ImagesRead w l r roi left right ∧ ReadZone left roi H W rf rl cf cl ∧
      GridIs gmin left dCol (-dCol.range - 1) ∧ GridIs gmax left dCol (dCol.range + 2) ∧
      (∀ dr : K, (∃ a : Int, dr * (n : K) = (a : K)) → Displaced (displaced dr) right dr) ∧
      (∀ f ∈ [files.row, files.col, files.score], (∀ i : Nat, i < f.h ↔ rf + (i : Int) ≤ rl) ∧ ∀ j : Nat, j < f.w ↔ cf + (j : Int) ≤ cl) ∧
      ∀ i < files.row.h, ∀ j < files.row.w, ∀ a b e x0 y0 : K,
        BowlCost me n (AskedPair dRow dCol n (rf + i) (cf + j)) (fun dr dc => pc left (displaced dr) gmin gmax (rf + (i : Int) - left.row0).toNat
          (cf + (j : Int) - left.col0).toNat dc) a b e x0 y0 →
        OptimumInside dRow n (rf + i) (cf + j) x0 → OptimumInside dCol n (rf + i) (cf + j) y0 →
        (∀ x y, AskedPair dRow dCol n (rf + i) (cf + j) x y → invalid ≠ .fin x ∧ invalid ≠ .fin y) →
        ∃ x y, (files.row.values i j = .fin x ∧ files.col.values i j = .fin y ∧ files.score.values i j = .fin (bowlAt a b e x0 y0 x y)) ∧
          |x - x0| ≤ 1 / 2 ^ (max k it + 1) ∧ |y - y0| ≤ 1 / 2 ^ (max k it + 1) := by
  obtain ⟨files, rest, roi, left, right, gmin, gmax, k, fr, lr, fc, lc, displaced, q1, q2, q0, q3, q4, ⟨q5, q5'⟩, q6, q7, q8, q9, q10⟩ :=
    C119_searched_files w user p0 mc inp l r f out H W dRow dCol rf rl cf cl sr sc invalid n it me pc keysKernel hw hdisk hpan hkeeps hzoom hu he
      href hm hit hker hmc hmat ask hne hi hleft hright h
  refine ⟨files, rest, roi, left, right, gmin, gmax, k, displaced, q1, q2, q0, q3, q4, q6, q7, q8, q9, ?_⟩
  intro i hi' j hj a b e x0 y0 hb hr hc hinv
  obtain ⟨r0, c0, s0, cost, hcost, bp, sp⟩ := q10 i hi' j hj
  obtain rfl : cost = fun dr dc => pc left (displaced dr) gmin gmax (rf + (i : Int) - left.row0).toNat
      (cf + (j : Int) - left.col0).toNat dc := funext fun dr => funext fun dc => hcost dr dc
  exact searched_bowl q2 bp sp hb hr hc (fun x hx => around_read q5 hr hx) (fun y hy => around_read q5' hc hy) hinv

/-! ### Example -/

/-- An image of seven rows and columns. -/
def exImgB (f : Nat → Nat → F ℚ) : Img ℚ := ⟨7, 7, 0, 0, f, none, .fin (-1), 0, 1⟩

/-- A right image with its smallest value between the pixels; the left image is zero. -/
def exBowlIm (r c : Nat) : F ℚ := .fin (((r : ℚ) - 13 / 4) ^ 2 + ((c : ℚ) - 14 / 5) ^ 2)

/-- A world with these images. -/
noncomputable def exWorldB : World ℚ :=
  { exWorldV with
    env := ⟨false, fun v => isStr v || decide (v = .null), isStr, fun _ => .ok ⟨1, 7, 7, some 1⟩, fun _ => none, fun _ => .ok (7, 7)⟩
    files := ⟨fun v roi =>
      let img := if isLeftSection v then exImgB (fun _ _ => .fin 0) else exImgB exBowlIm
      match roi with
      | none => .ok img
      | some R => .ok (cropImg img R), fun _ => ⟨7, 7, fun _ _ => 0⟩⟩ }

theorem exWorldB_contract : RunContract exWorldB 7 7 := by
  obtain ⟨-, p, k, r, a, o, i, s⟩ := exWorldV_contract
  refine ⟨⟨by decide, ?_, ?_, ?_, ?_⟩, ⟨p.1, p.2⟩, k, ?_, fun _ _ _ _ => rfl, o, i, s⟩
  · intro s g h
    simp only [exWorldB, Except.ok.injEq] at h
    subst h
    exact ⟨rfl, rfl⟩
  · intro v s h
    simp only [exWorldB, Except.ok.injEq] at h
    exact h.symm
  · intro v img h
    simp only [exWorldB, Except.ok.injEq] at h
    subst h
    split_ifs <;> exact ⟨rfl, rfl, rfl, rfl⟩
  · intro v R img h h1 h2 h3
    simp only [exWorldB, Except.ok.injEq] at h
    subst h
    have key : ∀ i : Img ℚ, i.h = 7 → i.w = 7 → CropOk (cropImg i R) R 7 7 := by
      intro i hi hi'
      refine ⟨h1, h2, h3, rfl, rfl, ?_, ?_⟩
      · simp only [cropImg, hi]; push_cast at *; omega
      · simp only [cropImg, hi']; push_cast at *; omega
    split_ifs
    · exact key _ rfl rfl
    · exact key _ rfl rfl
  · intro inp l r _ _ _ roi _
    cases roi with
    | none => exact ⟨_, _, rfl, rfl⟩
    | some R => exact ⟨_, _, rfl, rfl⟩

theorem exUserB_runs : Main.main exWorldB (exUserIt 1) = ((Main.main exWorldB (exUserIt 1)).1, none) := by
  have : (Main.main exWorldB (exUserIt 1)).2 = none := by
    obtain ⟨m, cfg, h⟩ := accepted_ok (w := { exWorldP with env := exWorldB.env, files := exWorldB.files }) (user := exUserIt 1) (by decide +kernel)
    refine C81_accepted_runs_partial exWorldB _ _ _ cfg m 7 7 0 6 0 6 1 1 (exUserIt_wf 1) exWorldB_contract rfl (by decide) rfl
      (.inl ⟨_, _, rfl, .inl rfl, .inl rfl⟩) (.inr ⟨rfl, rfl, rfl, rfl, rfl⟩) (by decide) ?_ ?_ (.inl ⟨rfl, rfl⟩) h
    · intro he
      exact absurd rfl he
    · intro v hv
      have : v = exDichoOf 1 := (Option.some.inj hv).symm
      subst this
      exact ⟨_, rfl, .inr (.inl ⟨rfl, rfl, rfl⟩)⟩
  exact Prod.ext rfl this

theorem exWorldB_images (left right : Img ℚ) (h : ImagesRead exWorldB exL exR none left right) :
    left = exImgB (fun _ _ => .fin 0) ∧ right = exImgB exBowlIm := by
  obtain ⟨lj, rj, k1, k2, h1, h2⟩ := h
  have g1 := k1 "img" _ rfl rfl
  have g2 := k2 "img" _ rfl rfl
  simp only [exWorldB, Except.ok.injEq] at h1 h2
  have e1 : isLeftSection (.obj lj) = true := by simp [isLeftSection, g1, readValue]
  have e2 : isLeftSection (.obj rj) = false := by simp [isLeftSection, g2, readValue]
  rw [e1, if_pos rfl] at h1
  rw [e2, if_neg (by decide)] at h2
  exact ⟨h1.symm, h2.symm⟩

/-- The costs of the pixel in the middle are those of a bowl. -/
theorem exWorldB_cost (d : Img ℚ) (gmin gmax : Arr2 Int) (X Y : Int) (hX : -2 ≤ X ∧ X ≤ 2) (hY : -2 ≤ Y ∧ Y ≤ 2)
    (hd : Displaced d (exImgB exBowlIm) X) (h1 : gmin.get 3 3 = -2) (h2 : gmax.get 3 3 = 3) :
    Pandora.windowCost 0 sad (exImgB fun _ _ => .fin 0) d gmin gmax 3 3 (Y : ℚ) = .fin (bowlAt 1 1 0 (1 / 4) (-1 / 5) (X : ℚ) (Y : ℚ)) := by
  obtain ⟨y, hy⟩ : ∃ y : Nat, 3 + Y = y := ⟨(3 + Y).toNat, by omega⟩
  obtain ⟨x, hx⟩ : ∃ x : Nat, 3 + X = x := ⟨(3 + X).toNat, by omega⟩
  have ey : ((3 : Nat) : ℚ) + Y = ((y : Int) : ℚ) := by rw [← hy]; push_cast; ring
  have ex : ((3 : Nat) : ℚ) + X = (x : ℚ) + 0 := by rw [add_zero, ← Int.cast_natCast (R := ℚ) x, ← hx]; push_cast; ring
  have hx6 : ((3 : Nat) : ℚ) + X ≤ (((exImgB exBowlIm).h - 1 : Nat) : ℚ) := by
    have : (X : ℚ) ≤ 2 := by exact_mod_cast hX.2
    simp only [exImgB]
    push_cast
    linarith
  have im : ∀ c < 7, d.im 3 c = exBowlIm x c := by
    intro c hc
    rw [(hd.samples 3 (by decide) c hc).1 x 0 le_rfl zero_lt_one ex hx6, lerpRow, if_pos rfl]
    rfl
  have nd : ∀ c < 7, Pandora.noDataAt d 3 c = false := by
    intro c hc
    rw [hd.flags, im c hc]
    simp only [exBowlIm, exImgB, F.eq, decide_eq_false_iff_not]
    intro h
    nlinarith [sq_nonneg ((x : ℚ) - 13 / 4), sq_nonneg ((c : ℚ) - 14 / 5)]
  have ok : Pandora.windowOk 0 (exImgB fun _ _ => .fin 0) d gmin gmax 3 3 (Y : ℚ) := by
    have hY1 : (-2 : ℚ) ≤ Y := by exact_mod_cast hY.1
    have hY2 : (Y : ℚ) ≤ 2 := by exact_mod_cast hY.2
    refine ⟨by decide, ?_, ⟨?_, ?_⟩, fun _ _ _ _ => rfl, ?_, rfl, hd.valid _ _, hd.valid _ _⟩
    · rw [ey, Int.floor_intCast, Int.ceil_intCast, hd.size.2]
      simp only [exImgB]
      omega
    · rw [h1]; push_cast; linarith
    · rw [h2]; push_cast; linarith
    · intro a ha z hz hz'
      rw [ey, Int.floor_intCast] at hz
      rw [ey, Int.ceil_intCast] at hz'
      obtain rfl : a = 0 := by omega
      exact nd z (by omega)
  rw [Pandora.windowCost, if_pos ok]
  have e : Pandora.windowPairs 0 (exImgB fun _ _ => .fin 0) d 3 3 (((3 : Nat) : ℚ) + Y) = [(.fin 0, exBowlIm x y)] := by
    rw [ey]
    simp [Pandora.windowPairs, Pandora.sampleCol, exImgB, im y (by omega)]
  rw [e]
  have e3 : (x : ℚ) = 3 + X := by rw [add_zero] at ex; push_cast at ex; exact ex.symm
  have e4 : (y : ℚ) = 3 + Y := by push_cast at ey; exact ey.symm
  have pos : 0 ≤ ((x : ℚ) - 13 / 4) ^ 2 + ((y : ℚ) - 14 / 5) ^ 2 := by positivity
  simp only [sad, sumOf, exBowlIm, bowlAt, F.add, zero_sub, abs_neg, abs_of_nonneg pos, F.fin.injEq]
  rw [e3, e4]
  ring

/-- The hypotheses of `C123_quadratic_optimum` hold for the pixel in the middle: the disparities found are those of the optimum to a quarter. -/
example : ∃ files rest, Main.main exWorldB (exUserIt 1) = (.rasters files :: rest, none) ∧
    ∃ x y : ℚ, files.row.values 3 3 = .fin x ∧ files.col.values 3 3 = .fin y ∧ |x - 1 / 4| ≤ 1 / 4 ∧ |y - (-1 / 5)| ≤ 1 / 4 := by
  have ct := exWorldB_contract
  obtain ⟨files, rest, roi, left, right, gmin, gmax, k, displaced, o, hk, hroi, im, zone, g1, g2, hd, size, key⟩ :=
    C123_quadratic_optimum exWorldB (exUserIt 1) _ _ _ exL exR _ _ 7 7 ⟨.const 0, 1⟩ ⟨.const 0, 1⟩ 0 6 0 6 1 1 .nan 1 1 .min _ (exUserIt_wf 1)
      ct.disk ct.pandora ct.keeps rfl rfl rfl rfl rfl ⟨_, 1, rfl, .inl rfl, by decide⟩ ⟨_, rfl, .inl ⟨rfl, rfl⟩⟩ rfl
      ⟨_, _, _, _, _, .int 1, rfl, rfl, rfl, .inl rfl, rfl, rfl⟩
      ⟨⟨_, rfl, ⟨_, _, _, rfl, rfl, rfl, .inl rfl, .inl ⟨_, .inl rfl, rfl⟩⟩, ⟨_, _, _, rfl, rfl, rfl, .inl rfl, .inl ⟨_, .inl rfl, rfl⟩⟩⟩,
        .inr ⟨rfl, rfl, rfl, rfl, rfl⟩,
        ⟨_, _, _, rfl, rfl, rfl, .inl ⟨_, _, rfl, .inl rfl, .inl rfl⟩, .inl ⟨_, rfl, .inr (.inr (.inl ⟨rfl, rfl⟩))⟩⟩⟩
      (by decide) rfl rfl rfl exUserB_runs
  obtain rfl := hroi.2 rfl
  obtain ⟨rfl, rfl⟩ := exWorldB_images _ _ im
  have hk0 : k = 0 := by
    rcases k with _ | k
    · rfl
    · rw [pow_succ] at hk; omega
  subst hk0
  have hh : 3 < files.row.h := ((size files.row (by simp)).1 3).2 (by decide)
  have hw : 3 < files.row.w := ((size files.row (by simp)).2 3).2 (by decide)
  have q1 : gmin.get 3 3 = -2 := g1 3 (by decide) 3 (by decide)
  have q2 : gmax.get 3 3 = 3 := g2 3 (by decide) 3 (by decide)
  have cost : ∀ X Y : Int, (-2 ≤ X ∧ X ≤ 2) → (-2 ≤ Y ∧ Y ≤ 2) → Pandora.windowCost 0 sad (exImgB fun _ _ => .fin 0) (displaced (X : ℚ)) gmin gmax
      3 3 (Y : ℚ) = .fin (bowlAt 1 1 0 (1 / 4) (-1 / 5) (X : ℚ) (Y : ℚ)) := fun X Y hX hY =>
    exWorldB_cost _ _ _ X Y hX hY (hd X ⟨X, by push_cast; ring⟩) q1 q2
  have bc : BowlCost .min 1 (AskedPair ⟨.const 0, 1⟩ ⟨.const 0, 1⟩ 1 (0 + (3 : Nat)) (0 + (3 : Nat))) (fun dr dc => Pandora.windowCost 0 sad
      (exImgB fun _ _ => .fin 0) (displaced dr) gmin gmax 3 3 dc) 1 1 0 (1 / 4) (-1 / 5 : ℚ) := by
    refine ⟨⟨one_pos, one_pos⟩, ?_, ?_⟩
    · intro X Y hX hY
      simp only [Nat.cast_one, div_one] at hX hY ⊢
      rw [abs_le] at hX hY
      refine cost X Y ⟨?_, ?_⟩ ⟨?_, ?_⟩
      · have : (-3 : ℚ) < X := by linarith [hX.1]
        have : (-3 : Int) < X := by exact_mod_cast this
        omega
      · have : (X : ℚ) < 3 := by linarith [hX.2]
        have : X < 3 := by exact_mod_cast this
        omega
      · have : (-3 : ℚ) < Y := by linarith [hY.1]
        have : (-3 : Int) < Y := by exact_mod_cast this
        omega
      · have : (Y : ℚ) < 3 := by linarith [hY.2]
        have : Y < 3 := by exact_mod_cast this
        omega
    · rintro x y ⟨⟨X, Y, hx, hy⟩, ⟨hx1, hx2⟩, hy1, hy2⟩
      simp only [Nat.cast_one, mul_one] at hx hy
      subst hx hy
      right
      have e := cost X Y ⟨?_, ?_⟩ ⟨?_, ?_⟩
      · simp only [AtLeastAsGood]
        have e' := e
        refine (congrArg (F.le _) e').trans ?_
        simp [F.le]
      all_goals
        have a1 : (0 - 1 : Int) ≤ X := by exact_mod_cast hx1
        have a2 : X ≤ (0 + 1 : Int) := by exact_mod_cast hx2
        have b1 : (0 - 1 : Int) ≤ Y := by exact_mod_cast hy1
        have b2 : Y ≤ (0 + 1 : Int) := by exact_mod_cast hy2
        omega
  have inside : OptimumInside ⟨.const 0, 1⟩ 1 (0 + (3 : Nat)) (0 + (3 : Nat)) (1 / 4 : ℚ) ∧
      OptimumInside ⟨.const 0, 1⟩ 1 (0 + (3 : Nat)) (0 + (3 : Nat)) (-1 / 5 : ℚ) := by
    refine ⟨⟨?_, ?_, .inl ⟨0, rfl⟩⟩, ⟨?_, ?_, .inl ⟨0, rfl⟩⟩⟩ <;> simp only [initAt] <;> norm_num
  obtain ⟨x, y, ⟨h1, h2, -⟩, h3, h4⟩ := key 3 hh 3 hw 1 1 0 (1 / 4) (-1 / 5) bc inside.1 inside.2 (fun x y _ => ⟨by simp, by simp⟩)
  refine ⟨files, rest, by rw [exUserB_runs]; exact congrArg (·, none) o, x, y, h1, h2, ?_, ?_⟩
  · norm_num at h3 ⊢
    exact h3
  · norm_num at h4 ⊢
    exact h4

end Verif.Props
