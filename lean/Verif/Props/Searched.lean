import Verif.Spec.Searched
import Verif.Props.InterpMain

/-!
# C119: the search of a dichotomy
-/

namespace Verif.Props

open Verif Verif.Config Verif.Machine Verif.ImgTools Verif.MatchingCost Verif.Disparity Verif.Estimation Verif.Run Verif.Main Verif.Spec
  Verif.Save Verif.Statistics Verif.Filters Verif.Dichotomy

set_option linter.unusedSectionVars false

variable {K : Type} [Field K] [LinearOrder K] [IsStrictOrderedRing K] [FloorRing K]

/-! ### The filters -/

/-- The filter has the weights of the kernel at the positions of the lattice of step `1 / 2 ^ it`. -/
structure IsKernel (f : IFilter K) (g : Kernel K) (it : Nat) : Prop where
  size : f.size = g.size
  left : f.left = g.before
  up : f.up = g.before
  weights : ∀ x : K, 0 ≤ x → (∃ n : Int, x * 2 ^ it = n) →
    ∃ a, f.coeffs (fracPart x) = .ok a ∧ a.n = f.size ∧ ∀ b < g.size, a.get b = g.weight (Int.fract x) b

theorem fracPart_lattice {x : K} {it : Nat} (h9 : it ≤ 9) (h0 : 0 ≤ x) (hx : ∃ n : Int, x * 2 ^ it = n) :
    fracPart x = Int.fract x ∧ ∃ j : Nat, j < 2 ^ it ∧ Int.fract x = (j : K) / 2 ^ it := by
  obtain ⟨k, hk⟩ := hx
  have hm : (0 : K) < 2 ^ it := by positivity
  have hk' : Int.fract x * 2 ^ it = ((k - ⌊x⌋ * 2 ^ it : Int) : K) := by
    rw [Int.fract, sub_mul, hk]
    push_cast
    ring
  have hj0 : 0 ≤ k - ⌊x⌋ * 2 ^ it := by
    have : 0 ≤ Int.fract x * 2 ^ it := mul_nonneg (Int.fract_nonneg x) hm.le
    rw [hk'] at this
    exact_mod_cast this
  have hj1 : k - ⌊x⌋ * 2 ^ it < 2 ^ it := by
    have : Int.fract x * 2 ^ it < 1 * 2 ^ it := mul_lt_mul_of_pos_right (Int.fract_lt_one x) hm
    rw [hk', one_mul] at this
    exact_mod_cast this
  obtain ⟨j, hj⟩ := Int.eq_ofNat_of_zero_le hj0
  rw [hj] at hk' hj1
  have hj1' : j < 2 ^ it := by exact_mod_cast hj1
  have hfr : Int.fract x = (j : K) / 2 ^ it := by
    rw [eq_div_iff hm.ne', hk']
    simp
  refine ⟨fracPart_eq x h0 ?_, j, hj1', hfr⟩
  rw [hfr]
  have hjle : (j : K) + 1 ≤ 2 ^ it := by exact_mod_cast hj1'
  have h9' : (2 : K) ^ it ≤ 2 ^ 9 := pow_le_pow_right₀ (by norm_num) h9
  unfold eps
  have h3 : ((j : K)) / 2 ^ it ≤ 1 - 1 / 2 ^ it := by
    rw [div_le_iff₀ hm, sub_mul, one_mul, div_mul_cancel₀ _ hm.ne']
    linarith
  have h4 : (1 : K) / 2 ^ 9 ≤ 1 / 2 ^ it := one_div_le_one_div_of_le hm h9'
  have h5 : (1 : K) / 2 ^ 23 ≤ 1 / 2 ^ 9 := by norm_num
  linarith

theorem keys_coeff (t : K) (h0 : 0 ≤ t) (h1 : t < 1) (i : Nat) (hi : i < 4) : bicubicCoeff t i = keys (t - ((i : K) - 1)) := by
  obtain ⟨e0, e1, e2, e3⟩ := bicubic_closed t h0 h1.le
  match i, hi with
  | 0, _ =>
    rw [e0]
    have : |t - (((0 : Nat) : K) - 1)| = t + 1 := by rw [abs_of_nonneg (by push_cast; linarith)]; push_cast; ring
    unfold keys
    rw [this]
    split_ifs with a b
    · have : t = 0 := by linarith
      subst this; norm_num
    · ring
    · exact absurd (by linarith : t + 1 ≤ 2) b
  | 1, _ =>
    rw [e1]
    have : |t - (((1 : Nat) : K) - 1)| = t := by rw [abs_of_nonneg (by push_cast; linarith)]; push_cast; ring
    unfold keys
    rw [this, if_pos h1.le]
    ring
  | 2, _ =>
    rw [e2]
    have : |t - (((2 : Nat) : K) - 1)| = 1 - t := by rw [abs_of_nonpos (by push_cast; linarith)]; push_cast; ring
    unfold keys
    rw [this, if_pos (by linarith)]
    ring
  | 3, _ =>
    rw [e3]
    have : |t - (((3 : Nat) : K) - 1)| = 2 - t := by rw [abs_of_nonpos (by push_cast; linarith)]; push_cast; ring
    unfold keys
    rw [this, if_neg (by linarith), if_pos (by linarith)]
    ring

theorem bicubic_kernel {it : Nat} (h9 : it ≤ 9) : IsKernel (bicubic : IFilter K) keysKernel it := by
  refine ⟨rfl, rfl, rfl, fun x h0 hx => ⟨_, rfl, rfl, fun b hb => ?_⟩⟩
  rw [(fracPart_lattice h9 h0 hx).1]
  exact keys_coeff _ (Int.fract_nonneg x) (Int.fract_lt_one x) b hb

/-- The filter `cardinalSine` has the weights of the cardinal sine under a Gaussian. -/
theorem sinc_weights (n m j : Nat) (hj : j < m) :
    ∃ a, (cardinalSine n m).coeffs ((j : ℝ) / m) = .ok a ∧ a.n = (sincKernel n).size ∧
      ∀ b < (sincKernel n).size, a.get b = (sincKernel n).weight ((j : ℝ) / m) b := by
  have raw : ∀ (t : ℝ) (b : Nat), rawCoeff n t b = gaussSinc n (t - ((b : ℝ) - n)) := by
    intro t b
    unfold rawCoeff gaussSinc Filters.sinc
    simp only
    congr 2
    rw [div_mul_eq_mul_div, div_mul_eq_mul_div]
    congr 1
    · ring
    · ring
  refine ⟨_, C48_row_of_table n m j hj, rfl, fun b hb => ?_⟩
  simp only [sincKernel, sincCoeff, raw, rawSum]
  congr 1
  have : ∀ (k : Nat) (g : Nat → ℝ), (List.range k).foldl (fun s i => s + g i) 0 = ∑ i ∈ Finset.range k, g i := by
    intro k g
    induction k with
    | zero => simp
    | succ k ih => rw [List.range_succ, List.foldl_append, ih, Finset.sum_range_succ]; rfl
  exact this _ _

/-! ### One value -/

/-- The value of the filter at a position whose window is inside the surface of the costs. -/
theorem interpolate1_filtered {f : IFilter K} {g : Kernel K} {it n : Nat} (hf : IsKernel f g it) (hn : 0 < n) {surface : Arr2 (F K)}
    {cost : K → K → F K} {A B : Int} (hs : ∀ i < surface.h, ∀ j < surface.w, surface.get i j = cost ((A : K) + j / n) ((B : K) + i / n))
    (hfin : ∀ x y, cost x y ≠ .ninf ∧ cost x y ≠ .pinf) {x y : K}
    (hin : AreaInside surface (⌊(y - B) * n⌋ - f.left) (⌊(x - A) * n⌋ - f.up) f.size) (hx0 : 0 ≤ (x - A) * n) (hy0 : 0 ≤ (y - B) * n)
    (hx : ∃ z : Int, (x - A) * n * 2 ^ it = z) (hy : ∃ z : Int, (y - B) * n * 2 ^ it = z) :
    interpolate1 f surface ((x - A) * n, (y - B) * n) = .ok (filtered g n cost x y) := by
  have hn' : (n : K) ≠ 0 := by exact_mod_cast hn.ne'
  obtain ⟨ay, ha1, ha2, ha3⟩ := hf.weights _ hy0 hy
  obtain ⟨ax, hb1, hb2, hb3⟩ := hf.weights _ hx0 hx
  obtain ⟨s1, s2, s3⟩ := area_inside f surface _ _ hin
  obtain ⟨w1, w2, w3, w4⟩ := hin
  have shift : ∀ (u : K) (C : Int), (u - C) * n = u * n - ((C * n : Int) : K) := by intro u C; push_cast; ring
  have fx : Int.fract ((x - A) * n) = Int.fract (x * n) := by rw [shift, Int.fract_sub_intCast]
  have fy : Int.fract ((y - B) * n) = Int.fract (y * n) := by rw [shift, Int.fract_sub_intCast]
  have gx : ⌊(x - A) * n⌋ = ⌊x * n⌋ - A * n := by rw [shift, Int.floor_sub_intCast]
  have gy : ⌊(y - B) * n⌋ = ⌊y * n⌋ - B * n := by rw [shift, Int.floor_sub_intCast]
  have nodes : ∀ (u : K) (C : Int) (p : Nat) (a : Nat), p = g.before → ⌊(u - C) * n⌋ = ⌊u * n⌋ - C * n → 0 ≤ ⌊(u - C) * n⌋ - (p : Int) →
      (C : K) + (((⌊(u - C) * n⌋ - (p : Int)).toNat + a : Nat) : K) / n = node g n u a := by
    intro u C p a hp hfl h0
    unfold node
    have e : (((⌊(u - C) * n⌋ - (p : Int)).toNat + a : Nat) : Int) = ⌊u * n⌋ - C * n - g.before + a := by
      rw [Nat.cast_add, Int.toNat_of_nonneg h0, hfl, hp]
    rw [← Int.cast_natCast (R := K), e, eq_div_iff hn', add_mul, div_mul_cancel₀ _ hn']
    push_cast
    ring
  have hget : ∀ b < g.size, ∀ a < g.size, (area f surface ((x - A) * n) ((y - B) * n)).get b a = cost (node g n x a) (node g n y b) := by
    intro b hb a ha
    have hsz := hf.size
    rw [s3, hs _ (by omega) _ (by omega), nodes x A f.up a hf.up gx w3, nodes y B f.left b hf.left gy w1]
  unfold interpolate1 apply
  simp only [ha1, hb1]
  rw [if_neg (by rw [s1, ha2]; simp), if_neg (by rw [s2, hb2]; simp), s1, s2, hf.size]
  congr 1
  by_cases hex : ∃ a < g.size, ∃ b < g.size, cost (node g n x a) (node g n y b) = .nan
  · obtain ⟨a, ha, b, hb, hc⟩ := hex
    unfold filtered
    rw [if_pos ⟨a, ha, b, hb, hc⟩]
    refine dot_nan _ _ _ a ha (dot_nan _ _ _ b hb ?_)
    rw [hget b hb a ha, hc]
  · have hval : ∀ a < g.size, ∀ b < g.size, cost (node g n x a) (node g n y b) =
        .fin (amount (cost (node g n x a) (node g n y b))) := by
      intro a ha b hb
      push Not at hex
      have h1 := hex a ha b hb
      obtain ⟨h2, h3⟩ := hfin (node g n x a) (node g n y b)
      cases hc : cost (node g n x a) (node g n y b) <;> simp_all [amount]
    unfold filtered
    rw [if_neg hex]
    rw [dot_fin g.size ax.get _ (fun a => ∑ b ∈ Finset.range g.size, ay.get b *
      (amount (cost (node g n x a) (node g n y b)))) fun a ha => ?_]
    · congr 1
      refine Finset.sum_congr rfl fun a ha => ?_
      rw [Finset.mul_sum]
      refine Finset.sum_congr rfl fun b hb => ?_
      rw [ha3 b (Finset.mem_range.1 hb), hb3 a (Finset.mem_range.1 ha), fx, fy]
      ring
    · refine dot_fin _ _ _ _ fun b hb => ?_
      rw [hget b hb a ha]
      exact hval a ha b hb

/-! ### One search -/

theorem mem_moves (s : Int × Int) : s ∈ moves ↔ Around s := by
  constructor
  · intro h
    have := moves_bound s h
    rw [abs_le, abs_le] at this
    exact this
  · rintro ⟨⟨a, b⟩, c, d⟩
    obtain ⟨x, y⟩ := s
    simp only at a b c d
    have hx : x = -1 ∨ x = 0 ∨ x = 1 := by omega
    have hy : y = -1 ∨ y = 0 ∨ y = 1 := by omega
    rcases hx with rfl | rfl | rfl <;> rcases hy with rfl | rfl | rfl <;> decide

theorem moves_order : ∀ i < 9, ∀ j < 9, i ≤ j → ∀ s ∈ moves[i]?, ∀ t ∈ moves[j]?, s.1 < t.1 ∨ (s.1 = t.1 ∧ s.2 ≤ t.2) := by decide

theorem moves_zero : ∀ i < 9, moves[i]? = some (0, 0) ↔ i = 4 := by decide

/-- A search chooses among the values tried. -/
theorem search_move {m : Measure} {f : IFilter K} {n : Nat} {surface : Arr2 (F K)} {p p' : Point K} {h : K} {val : K → K → F K} {A B : Int}
    (hsr : search m f n surface p h = .ok p') (h1 : p.cost ≠ .nan) (h2 : p.cost ≠ worstOf m)
    (e1 : p.posRow = (p.dispRow - A) * n) (e2 : p.posCol = (p.dispCol - B) * n)
    (hval : ∀ s, Around s → s ≠ (0, 0) → interpolate1 f surface ((p.dispRow + s.1 * h - A) * n, (p.dispCol + s.2 * h - B) * n) =
      .ok (val (p.dispRow + s.1 * h) (p.dispCol + s.2 * h))) :
    ∃ s, BestMove m val h p.dispRow p.dispCol p.cost s ∧ p'.dispRow = p.dispRow + s.1 * h ∧ p'.dispCol = p.dispCol + s.2 * h ∧
      p'.cost = tried val h p.dispRow p.dispCol p.cost s ∧ p'.posRow = (p'.dispRow - A) * n ∧ p'.posCol = (p'.dispCol - B) * n := by
  have h1' : p.cost.isNaN = false := by cases hc : p.cost <;> simp_all [F.isNaN]
  obtain ⟨l, i, s, v, hl, hlen, hs, hv, rfl, hi⟩ := search_ok hsr
  -- the candidates
  have hcand : ∀ (j : Nat) (t : Int × Int), moves[j]? = some t → (l.set 4 p.cost)[j]? = some (tried val h p.dispRow p.dispCol p.cost t) := by
    intro j t ht
    have hj : j < 9 := by
      by_contra hc
      rw [List.getElem?_eq_none (by simp [moves]; omega)] at ht
      simp at ht
    have hjl : j < (l.set 4 p.cost).length := by simp [hlen, hj]
    rw [List.getElem?_eq_getElem hjl]
    congr 1
    rcases candidate_of hl (List.getElem?_eq_getElem hjl) with ⟨rfl, hv'⟩ | ⟨hne, a, b, hm, hv'⟩
    · have ht0 : t = (0, 0) := (Option.some.inj ht).symm
      rw [hv', tried, if_pos ht0]
    · rw [ht, Option.some.injEq] at hm
      subst hm
      have hne0 : ((a, b) : Int × Int) ≠ (0, 0) := fun hc => hne ((moves_zero j hj).1 (by rw [ht, hc]))
      have hq := hval (a, b) ((mem_moves _).1 (List.mem_of_getElem? ht)) hne0
      have q1 : (a : K) * h * n + p.posRow = (p.dispRow + a * h - A) * n := by rw [e1]; ring
      have q2 : (b : K) * h * n + p.posCol = (p.dispCol + b * h - B) * n := by rw [e2]; ring
      rw [q1, q2, hq] at hv'
      rw [tried, if_neg hne0]
      exact (Except.ok.inj hv').symm
  have hidx : ∀ t, Around t → ∃ j : Nat, j < 9 ∧ moves[j]? = some t := by
    intro t ht
    obtain ⟨j, hj⟩ := List.mem_iff_getElem?.1 ((mem_moves t).2 ht)
    refine ⟨j, ?_, hj⟩
    by_contra hc
    rw [List.getElem?_eq_none (by simp [moves]; omega)] at hj
    simp at hj
  have hve : v = tried val h p.dispRow p.dispCol p.cost s := by
    rw [hcand i s hs] at hv
    exact (Option.some.inj hv).symm
  have hi9 : i < 9 := by
    by_contra hc
    rw [List.getElem?_eq_none (by simp [moves]; omega)] at hs
    simp at hs
  have h4 : (l.set 4 p.cost)[4]? = some p.cost := by rw [List.getElem?_set_self (by omega)]
  refine ⟨s, ?_, by simp only [moved]; ring, by simp only [moved]; ring, hve, ?_, ?_⟩
  rotate_left
  · simp only [moved]; rw [e1]; ring
  · simp only [moved]; rw [e2]; ring
  have hsa : Around s := (mem_moves s).1 (List.mem_of_getElem? hs)
  have hflat : allSame (l.set 4 p.cost) = true ↔ ∀ t, Around t → tried val h p.dispRow p.dispCol p.cost t = p.cost := by
    have hmem4 := List.mem_of_getElem? h4
    constructor
    · intro ha t ht
      obtain ⟨j, -, hj⟩ := hidx t ht
      have hmem := List.mem_of_getElem? (hcand j t hj)
      cases hcl : l.set 4 p.cost with
      | nil => rw [hcl] at hmem; simp at hmem
      | cons y ys =>
        rw [hcl] at ha hmem hmem4
        unfold allSame at ha
        rw [List.all_eq_true] at ha
        have hy : ∀ a ∈ y :: ys, y = a := by
          intro a hma
          rcases List.mem_cons.1 hma with rfl | hma
          · rfl
          · exact (F.eq_iff.1 (ha a hma)).1
        rw [← hy _ hmem, ← hy _ hmem4]
    · intro hall
      have hmem : ∀ y ∈ l.set 4 p.cost, y = p.cost := by
        intro y hy
        obtain ⟨j, hj, rfl⟩ := List.getElem_of_mem hy
        have hj9 : j < moves.length := by
          have : (l.set 4 p.cost).length = 9 := by simp [hlen]
          simp only [moves, List.length_cons, List.length_nil]; omega
        have := hcand j _ (List.getElem?_eq_getElem hj9)
        rw [List.getElem?_eq_getElem hj, Option.some.injEq] at this
        rw [this]
        exact hall _ ((mem_moves _).1 (List.getElem_mem hj9))
      cases hcl : l.set 4 p.cost with
      | nil => rw [hcl] at hmem4; simp at hmem4
      | cons y ys =>
        rw [hcl] at hmem
        unfold allSame
        rw [List.all_eq_true]
        intro z hz
        rw [F.eq_iff, hmem y List.mem_cons_self, hmem z (List.mem_cons_of_mem _ hz)]
        exact ⟨rfl, h1'⟩
  split_ifs at hi with ha
  · subst hi
    have hs' : s = (0, 0) := (Option.some.inj hs).symm
    have hall := hflat.1 ha
    refine ⟨hsa, by rw [hall s hsa]; exact h1, fun t ht hn => ?_, fun _ => hs', ?_⟩
    · rw [hall s hsa, hall t ht]
      exact le_of_not_better h1 h1 (Measure.better_irrefl _ _)
    · rintro ⟨t, ht, hne⟩
      exact absurd (hall t ht) hne
  · obtain ⟨v', hv', a, b, c, d⟩ := nanArg_spec m _ i hi ⟨p.cost, List.mem_of_getElem? h4, h1', by rw [worst_eq]; exact h2⟩
    rw [hv] at hv'
    have e := Option.some.inj hv'
    subst e
    have hvn : v ≠ .nan := by rintro rfl; simp [F.isNaN] at a
    rw [hve] at hvn a c d
    refine ⟨hsa, hvn, fun t ht hn => ?_, fun hall => absurd (hflat.2 hall) ha, fun _ t ht heq => ?_⟩
    · obtain ⟨j, -, hj⟩ := hidx t ht
      exact le_of_not_better hn hvn (c _ (List.mem_of_getElem? (hcand j t hj)))
    · obtain ⟨j, hj9, hj⟩ := hidx t ht
      by_cases hij : i ≤ j
      · exact moves_order i hi9 j hj9 hij s hs t hj
      · rcases d j _ (by omega) (hcand j t hj) with hd | hd
        · rw [heq, a] at hd; simp at hd
        · rw [heq, Measure.better_irrefl] at hd; simp at hd

/-- The loop over the precisions follows a path. -/
theorem loop_path {m : Measure} {f : IFilter K} {n it : Nat} {surface : Arr2 (F K)} {val : K → K → F K} {A B : Int} {x0 y0 : K} {k0 : Nat}
    (hval : ∀ x y : K, |x - x0| ≤ 1 / 2 ^ k0 - 1 / 2 ^ it → |y - y0| ≤ 1 / 2 ^ k0 - 1 / 2 ^ it → (∃ z : Int, (x - x0) * 2 ^ it = z) →
      (∃ z : Int, (y - y0) * 2 ^ it = z) → interpolate1 f surface ((x - A) * n, (y - B) * n) = .ok (val x y)) :
    ∀ (d k : Nat) (p p' : Point K), it = k + d → p.cost ≠ .nan → p.cost ≠ worstOf m → p.posRow = (p.dispRow - A) * n →
      p.posCol = (p.dispCol - B) * n → |p.dispRow - x0| ≤ 1 / 2 ^ k0 - 1 / 2 ^ k → |p.dispCol - y0| ≤ 1 / 2 ^ k0 - 1 / 2 ^ k →
      (∃ z : Int, (p.dispRow - x0) * 2 ^ k = z) → (∃ z : Int, (p.dispCol - y0) * 2 ^ k = z) →
      Dichotomy.loop m f n surface p ((List.range' (k + 1) d).map fun i => 1 / 2 ^ i) = .ok p' →
      Path m val it k p.dispRow p.dispCol p.cost p'.dispRow p'.dispCol p'.cost
  | 0, k, p, p', hk, _, _, _, _, _, _, _, _, h => by
    simp only [List.range'_zero, List.map_nil, Dichotomy.loop, Except.ok.injEq] at h
    subst h
    exact .stop (by omega)
  | d + 1, k, p, p', hk, c1, c2, e1, e2, a1, a2, l1, l2, h => by
    rw [List.range'_succ, List.map_cons] at h
    unfold Dichotomy.loop at h
    split at h
    · simp at h
    · rename_i q hq
      have hpos : (0 : K) < 1 / 2 ^ (k + 1) := by positivity
      have hhalf : (1 : K) / 2 ^ k = 1 / 2 ^ (k + 1) + 1 / 2 ^ (k + 1) := by rw [pow_succ]; field_simp; norm_num
      have hle : (1 : K) / 2 ^ it ≤ 1 / 2 ^ (k + 1) :=
        one_div_le_one_div_of_le (by positivity) (pow_le_pow_right₀ (by norm_num) (by omega))
      have near : ∀ (u u0 : K) (a : Int), -1 ≤ a → a ≤ 1 → |u - u0| ≤ 1 / 2 ^ k0 - 1 / 2 ^ k →
          |u + a * (1 / 2 ^ (k + 1)) - u0| ≤ 1 / 2 ^ k0 - 1 / 2 ^ (k + 1) := by
        intro u u0 a g1 g2 hu
        have g1' : (-1 : K) ≤ a := by exact_mod_cast g1
        have g2' : (a : K) ≤ 1 := by exact_mod_cast g2
        rw [abs_le] at hu ⊢
        constructor <;> nlinarith [hu.1, hu.2]
      have latt : ∀ (u u0 : K) (a : Int), (∃ z : Int, (u - u0) * 2 ^ k = z) →
          ∃ z : Int, (u + a * (1 / 2 ^ (k + 1)) - u0) * 2 ^ (k + 1) = z := by
        rintro u u0 a ⟨z, hz⟩
        refine ⟨z * 2 + a, ?_⟩
        push_cast
        rw [← hz]
        field_simp
        ring
      have fine : ∀ u : K, (∃ z : Int, u * 2 ^ (k + 1) = z) → ∃ z : Int, u * 2 ^ it = z := by
        rintro u ⟨z, hz⟩
        refine ⟨z * 2 ^ d, ?_⟩
        push_cast
        rw [← hz, show it = k + 1 + d by omega, pow_add]
        ring
      obtain ⟨s, hch, q1, q2, q3, q4, q5⟩ := search_move (val := val) (A := A) (B := B) hq c1 c2 e1 e2 fun s hs _ =>
        hval _ _ ((near _ _ _ hs.1.1 hs.1.2 a1).trans (by linarith)) ((near _ _ _ hs.2.1 hs.2.2 a2).trans (by linarith))
          (fine _ (latt _ _ _ l1)) (fine _ (latt _ _ _ l2))
      have hc1' : p.cost.isNaN = false := by cases hc : p.cost <;> simp_all [F.isNaN]
      obtain ⟨r1, r2, -⟩ := search_cost hq hc1' (by rw [worst_eq]; exact c2)
      have r1' : q.cost ≠ .nan := by intro hc; rw [hc] at r1; simp [F.isNaN] at r1
      have hsr := hch.around
      have := loop_path hval d (k + 1) q p' (by omega) r1' (by rw [← worst_eq]; exact r2) q4 q5
        (by rw [q1]; exact near _ _ _ hsr.1.1 hsr.1.2 a1) (by rw [q2]; exact near _ _ _ hsr.2.1 hsr.2.2 a2)
        (by rw [q1]; exact latt _ _ _ l1) (by rw [q2]; exact latt _ _ _ l2) h
      rw [q1, q2, q3] at this
      exact .move (by omega) hch this

/-! ### One pixel -/

section
variable {f : IFilter K} {g : Kernel K} {it k : Nat} {cv : CostVolumes K} {invalid : F K} {rowMap colMap : Arr2 (F K)} {gr : Grids}
  {out : Dichotomy.Maps K} {mg : Disparity.Margins} {cl ch rl rh : Int}

theorem costValue_invalid {r c : Nat} {v : F K} (h : costValue cv invalid (rowMap.get r c) (colMap.get r c) r c = .ok v)
    (hi : rowMap.get r c = invalid ∨ colMap.get r c = invalid) : v = .nan := by
  have hb : (isInvalid invalid (rowMap.get r c) || isInvalid invalid (colMap.get r c)) = true := by
    rcases hi with hi | hi
    · rw [(isInvalid_iff invalid (rowMap.get r c)).2 hi]; rfl
    · rw [(isInvalid_iff invalid (colMap.get r c)).2 hi, Bool.or_true]
  unfold costValue at h
  simp only [hb, if_true] at h
  split_ifs at h <;> split at h <;> first | exact (Except.ok.inj h).symm | simp at h

/-- Each pixel of a refinement by the dichotomy is the end of its search. -/
theorem method_searched (h : refinementMethod f it cv invalid rowMap colMap gr = .ok out) (hs : cv.subpixel = 2 ^ k)
    (hac : IsAxis cv.dispCol cl ch mg.left mg.right cv.subpixel) (har : IsAxis cv.dispRow rl rh mg.up mg.down cv.subpixel)
    (hfit : FitsMargins f.left f.up f.size mg) (hker : IsKernel f g it) {r c : Nat} (hr : r < cv.row.n) (hc : c < cv.col.n)
    (hg : rl ≤ gr.rowMin.get r c ∧ gr.rowMax.get r c ≤ rh ∧ cl ≤ gr.colMin.get r c ∧ gr.colMax.get r c ≤ ch)
    {cost : K → K → F K} (hcost : ∀ i < cv.dispCol.n, ∀ j < cv.dispRow.n, cv.data r c i j = cost (cv.dispRow.get j) (cv.dispCol.get i))
    (hfin : ∀ x y, cost x y ≠ .ninf ∧ cost x y ≠ .pinf)
    (hmap : (rowMap.get r c = invalid ∧ colMap.get r c = invalid) ∨
      ((∃ j < cv.dispRow.n, rowMap.get r c = .fin (cv.dispRow.get j)) ∧ (∃ i < cv.dispCol.n, colMap.get r c = .fin (cv.dispCol.get i)) ∧
      DispInRange (gr.rowMin.get r c) (gr.rowMax.get r c) (rowMap.get r c) ∧
      DispInRange (gr.colMin.get r c) (gr.colMax.get r c) (colMap.get r c))) :
    SearchedPixel cv.measure cost (filtered g (2 ^ k) cost) k it (gr.rowMin.get r c) (gr.rowMax.get r c) (gr.colMin.get r c)
      (gr.colMax.get r c) invalid (rowMap.get r c) (colMap.get r c) (out.row.get r c) (out.col.get r c) (out.cost.get r c) := by
  have hsub : 0 < cv.subpixel := by rw [hs]; positivity
  have hsub' : (cv.subpixel : K) ≠ 0 := by exact_mod_cast hsub.ne'
  obtain ⟨v, hv, hp⟩ := method_pixel h hr hc
  have hwf : ∀ x y, cost x y ≠ worstOf cv.measure := by
    intro x y
    cases cv.measure
    · exact (hfin x y).1
    · exact (hfin x y).2
  have both : ∀ x y, rowMap.get r c = .fin x → colMap.get r c = .fin y → rowMap.get r c ≠ invalid → colMap.get r c ≠ invalid →
      ∃ j < cv.dispRow.n, ∃ i < cv.dispCol.n, x = cv.dispRow.get j ∧ y = cv.dispCol.get i ∧ v = cost x y ∧
        (((gr.rowMin.get r c : Int) : K) ≤ x ∧ x ≤ ((gr.rowMax.get r c : Int) : K)) ∧
        (((gr.colMin.get r c : Int) : K) ≤ y ∧ y ≤ ((gr.colMax.get r c : Int) : K)) := by
    intro x y ex ey n1 n2
    rcases hmap with ⟨a, -⟩ | ⟨⟨j, hj, ej⟩, ⟨i, hi, ei⟩, ⟨x', ex', x1, x2⟩, ⟨y', ey', y1, y2⟩⟩
    · exact absurd a n1
    · rw [ex] at ej ex'
      rw [ey] at ei ey'
      obtain rfl := F.fin.inj ej
      obtain rfl := F.fin.inj ei
      obtain rfl := F.fin.inj ex'
      obtain rfl := F.fin.inj ey'
      refine ⟨j, hj, i, hi, rfl, rfl, ?_, ⟨x1, x2⟩, y1, y2⟩
      rw [ex] at n1 hv
      rw [ey] at n2 hv
      rw [costValue_axes hsub hac har r c i j hi hj n1 n2, hcost i hi j hj] at hv
      exact (Except.ok.inj hv).symm
  refine ⟨fun hi => ?_, fun x y ex ey n1 n2 hk => ?_, fun x y ex ey n1 n2 hend hne => ?_⟩
  · have hvn := costValue_invalid hv hi
    rcases refinePixel_cases hp with ⟨he, -⟩ | ⟨hn, -⟩
    · rw [Cell.mk.injEq] at he
      exact ⟨he.1, he.2.1, by rw [he.2.2]; exact hvn⟩
    · simp only at hn
      rw [hvn] at hn
      simp [F.isNaN] at hn
  · obtain ⟨j, hj, i, hi, -, -, hvc, -⟩ := both x y ex ey n1 n2
    rcases refinePixel_cases hp with ⟨he, -⟩ | ⟨hn, m1, m2, -⟩
    · rw [Cell.mk.injEq] at he
      exact ⟨he.1, he.2.1, by rw [he.2.2]; exact hvc⟩
    · simp only at hn m1 m2
      exfalso
      rcases hk with (hk | hk) | hk
      · rw [(atEnd_iff _ _ _).2 hk] at m1; simp at m1
      · rw [(atEnd_iff _ _ _).2 hk] at m2; simp at m2
      · rw [hvc, hk] at hn; simp [F.isNaN] at hn
  · obtain ⟨j, hj, i, hi, rfl, rfl, hvc, ⟨r1, r2⟩, c1, c2⟩ := both x y ex ey n1 n2
    rcases refinePixel_cases hp with ⟨-, hk⟩ | ⟨hn, m1, m2, dr, dc, p, e1, e2, hl, he⟩
    · exfalso
      simp only at hk
      rcases hk with hk | hk | hk
      · apply hne; rw [← hvc]; cases v <;> simp_all [F.isNaN]
      · exact hend (.inl ((atEnd_iff _ _ _).1 hk))
      · exact hend (.inr ((atEnd_iff _ _ _).1 hk))
    · rw [Cell.mk.injEq] at he
      simp only at e1 e2 m1 m2 hl
      rw [ex] at e1 m1
      rw [ey] at e2 m2
      obtain rfl := F.fin.inj e1
      obtain rfl := F.fin.inj e2
      refine ⟨_, _, _, he.1, he.2.1, he.2.2, ?_⟩
      rw [searchAxis_get hsub har hj, searchAxis_get hsub hac hi, hvc, hs] at hl
      by_cases hki : k ≤ it
      · rw [precisions_eq] at hl
        have s2 := atEnd_false m1
        have s3 := atEnd_false m2
        have k1 : (rl : K) ≤ (gr.rowMin.get r c : Int) := by exact_mod_cast hg.1
        have k2 : ((gr.rowMax.get r c : Int) : K) ≤ rh := by exact_mod_cast hg.2.1
        have k3 : (cl : K) ≤ (gr.colMin.get r c : Int) := by exact_mod_cast hg.2.2.1
        have k4 : ((gr.colMax.get r c : Int) : K) ≤ ch := by exact_mod_cast hg.2.2.2
        have wr := axis_strict hsub har hj (k1.trans_lt (lt_of_le_of_ne r1 (Ne.symm s2.1))) ((lt_of_le_of_ne r2 s2.2).trans_le k2)
        have wc := axis_strict hsub hac hi (k3.trans_lt (lt_of_le_of_ne c1 (Ne.symm s3.1))) ((lt_of_le_of_ne c2 s3.2).trans_le k4)
        have hp2 : ((2 ^ k : Nat) : K) ≠ 0 := by positivity
        have hq2 : (0 : K) < 2 ^ k := by positivity
        have posr : (cv.dispRow.get j - ((rl - mg.up : Int) : K)) * ((2 ^ k : Nat) : K) = j := by
          rw [har.2 j hj, hs, add_sub_cancel_left, div_mul_cancel₀ _ hp2]
        have posc : (cv.dispCol.get i - ((cl - mg.left : Int) : K)) * ((2 ^ k : Nat) : K) = i := by
          rw [hac.2 i hi, hs, add_sub_cancel_left, div_mul_cancel₀ _ hp2]
        have near : ∀ (u u0 : K) (C : Int) (q : Nat), (u0 - C) * ((2 ^ k : Nat) : K) = q → |u - u0| ≤ 1 / 2 ^ k - 1 / 2 ^ it →
            |(u - C) * ((2 ^ k : Nat) : K) - q| < 1 := by
          intro u u0 C q hq hu
          have e : (u - C) * ((2 ^ k : Nat) : K) - q = (u - u0) * 2 ^ k := by rw [← hq]; push_cast; ring
          rw [e, abs_mul, abs_of_pos hq2]
          have hlt : |u - u0| < 1 / 2 ^ k := by
            have : (0 : K) < 1 / 2 ^ it := by positivity
            linarith
          rwa [lt_div_iff₀ hq2] at hlt
        have latt : ∀ (u u0 : K) (C : Int) (q : Nat), (u0 - C) * ((2 ^ k : Nat) : K) = q → (∃ z : Int, (u - u0) * 2 ^ it = z) →
            ∃ z : Int, (u - C) * ((2 ^ k : Nat) : K) * 2 ^ it = z := by
          rintro u u0 C q hq ⟨z, hz⟩
          refine ⟨z * 2 ^ k + q * 2 ^ it, ?_⟩
          push_cast
          rw [← hz, ← hq]
          push_cast
          ring
        have hval : ∀ x y : K, |x - cv.dispRow.get j| ≤ 1 / 2 ^ k - 1 / 2 ^ it → |y - cv.dispCol.get i| ≤ 1 / 2 ^ k - 1 / 2 ^ it →
            (∃ z : Int, (x - cv.dispRow.get j) * 2 ^ it = z) → (∃ z : Int, (y - cv.dispCol.get i) * 2 ^ it = z) →
            interpolate1 f (surfaceAt cv r c) ((x - ((rl - mg.up : Int) : K)) * ((2 ^ k : Nat) : K),
              (y - ((cl - mg.left : Int) : K)) * ((2 ^ k : Nat) : K)) = .ok (filtered g (2 ^ k) cost x y) := by
          intro x y hx hy lx ly
          obtain ⟨⟨f1, f2⟩, f3, f4⟩ := hfit
          obtain ⟨a1, a2, a3⟩ := window_axis hsub wc (near y _ _ i posc hy) f1 f2
          obtain ⟨b1, b2, b3⟩ := window_axis hsub wr (near x _ _ j posr hx) f3 f4
          refine interpolate1_filtered hker (by positivity) (fun i' hi' j' hj' => ?_) hfin ⟨a1, a2, b1, b2⟩ b3 a3
            (latt x _ _ j posr lx) (latt y _ _ i posc ly)
          have := hcost i' hi' j' hj'
          rw [har.2 j' hj', hac.2 i' hi', hs] at this
          exact this
        have := loop_path (m := cv.measure) (k0 := k) hval (it - k) k _ p (by omega) (by exact hne) (by exact hwf _ _)
          (by simpa using posr.symm) (by simpa using posc.symm) (by simp) (by simp) ⟨0, by simp⟩ ⟨0, by simp⟩ hl
        exact this
      · rw [precisions_nil k it (by omega)] at hl
        have hl' := Except.ok.inj hl
        subst hl'
        exact .stop (by omega)

end

/-! ### Whole executions -/

section
variable {w : World K} {user p0 mc f : Fields} {out : List (Written K)} {H W : Nat} {rf rl cf cl : Int} {n it : Nat} {me : Measure}
  {pc : Pandora.Cost K} {g : Kernel K}

/-- The rasters of a successful `main` with a dichotomy: each pixel ends the search which starts at its best pair. -/
theorem Stages.searchedWinner (s : Stages w user p0 out) (hdisk : DiskContract w H W) (hkeeps : PandoraKeeps w.pandora) (hw : user.wf)
    (hu : user.get "pipeline" = some (.obj p0)) (hz : ZoneIs user H W rf rl cf cl) (hne : rf < rl ∧ rl < H ∧ cf < cl ∧ cl < W)
    (href : p0.get "refinement" = some (.obj f)) (hm : f.get "refinement_method" = some (.str "dichotomy")) (hitu : IterationsIs f it)
    (hker : KernelIs w f it g) (hmc : p0.get "matching_cost" = some (.obj mc)) (hmat : MatcherIs w mc n me pc) :
    0 < n ∧ s.plan.cfg.stepRow = 1 ∧ s.plan.cfg.stepCol = 1 ∧
    ∃ (dRow dCol : Disp) (k : Nat) (fr lr fc lc : Int) (gmin gmax : Arr2 Int), n = 2 ^ k ∧
      (∃ i3, s.cfg3.get "input" = some (.obj i3) ∧ IsDisp w.files i3 "row_disparity" dRow ∧ IsDisp w.files i3 "col_disparity" dCol) ∧
      (p0.get "estimation" = none → IsDisp w.files s.inp "row_disparity" dRow ∧ IsDisp w.files s.inp "col_disparity" dCol) ∧
      ReadZone s.left.img s.roi H W rf rl cf cl ∧ (s.right.img.h = s.left.img.h ∧ s.right.img.w = s.left.img.w) ∧
      (Extent dRow s.left.img fr lr ∧ Extent dCol s.left.img fc lc) ∧
      GridIs gmin s.left.img dCol (-dCol.range - g.before) ∧ GridIs gmax s.left.img dCol (dCol.range + (g.size - 1 - g.before : Nat)) ∧
      (∀ f ∈ [s.files.row, s.files.col, s.files.score], (∀ i : Nat, i < f.h ↔ rf + (i : Int) ≤ rl) ∧ ∀ j : Nat, j < f.w ↔ cf + (j : Int) ≤ cl) ∧
      ∀ i < s.files.row.h, ∀ j < s.files.row.w,
        (∃ a b : Nat, a < s.left.img.h ∧ b < s.left.img.w ∧ rf + (i : Int) = s.left.img.row0 + a ∧
          cf + (j : Int) = s.left.img.col0 + b) ∧
        ∃ r0 c0 s0, ∃ cost : K → K → F K, (∀ dr dc, cost dr dc = pc s.left.img (slabImg w.run.zoom s.right.img n dr) gmin gmax
            (rf + (i : Int) - s.left.img.row0).toNat (cf + (j : Int) - s.left.img.col0).toNat dc) ∧
          BestPair me (AskedPair dRow dCol n (rf + i) (cf + j)) cost s.plan.invalid r0 c0 s0 ∧
          SearchedPixel me (seen dRow dCol fr lr fc lc (rf + i) (cf + j) cost)
            (filtered g n (seen dRow dCol fr lr fc lc (rf + i) (cf + j) cost)) k it
            (initAt dRow (rf + i) (cf + j) - dRow.range) (initAt dRow (rf + i) (cf + j) + dRow.range)
            (initAt dCol (rf + i) (cf + j) - dCol.range) (initAt dCol (rf + i) (cf + j) + dCol.range) s.plan.invalid r0 c0
            (s.files.row.values i j) (s.files.col.values i j) (s.files.score.values i j) := by
  obtain ⟨hin, hzone⟩ := s.zone hdisk hz ⟨hne.2.1, hne.2.2.2⟩
  obtain ⟨-, hsize, -⟩ := s.image hdisk hin
  obtain ⟨dRow, dCol, L, cv, o, m, e1, e2, e3, e4, e5, e6, hp, r2, r3, r4, hmaps, e7, e8, e9⟩ := s.volumes hdisk hin hw hu
  obtain ⟨b1, b2, b3, b4⟩ := s.reads.steps
  obtain ⟨-, -, -, -, hg⟩ := pipeline_new w.steps user p0 s.pl s.m hw hu s.pipeline
  have hpw : p0.wf := Fields.wf_get user hw hu
  obtain ⟨u1, u2, u3⟩ := s.matcher hkeeps hw hu hmc hmat
  -- the matching cost
  obtain ⟨mc', m1, m2⟩ := s.reads.matching
  obtain ⟨cm, vm', hm1, -, hm2, hm3⟩ := hg _ _ m1
  obtain ⟨me', k, cost, hbm, hsub⟩ := mc_rebuilt hkeeps hm1 hm2 m2
  obtain ⟨vb, hvb, hvb'⟩ := s.reads.built
  rw [hm3, Option.some.injEq] at hvb
  subst hvb
  rw [hbm, Except.ok.injEq, StepCfg.matchingCost.injEq] at hvb'
  obtain ⟨hcfg, -, -⟩ := hvb'
  have hk : s.plan.cfg.subpix = 2 ^ k := by rw [← hcfg]
  -- the dichotomy
  obtain ⟨vm, cm', st, wn, mar, c', -, -, -, -, k5, k6⟩ := checked_with hw hu s.pipeline href
  obtain ⟨c, v', h1, h2, h3, h4⟩ := hg _ _ href
  rw [h2, Option.some.injEq, Prod.mk.injEq] at k6
  obtain ⟨-, rfl⟩ := k6
  obtain ⟨it', flt, q1, q2, q3, q4⟩ := dicho_rebuilt_exact (a := s.m.data) (Fields.wf_get p0 hpw href) hm k5 h3
  obtain ⟨v'', c', w1, w2, w3⟩ := s.reads.refinement _ href
  rw [h4, Option.some.injEq] at w1
  subst w1
  rw [q2, Except.ok.injEq] at w2
  subst w2
  rw [refinement_margins hw hu s.pipeline h2] at r2
  rw [w3] at r4
  simp only [List.map_cons, List.map_nil, refinedAll, refined] at r4
  obtain ⟨o', y1, y2⟩ := bind_eq_ok r4
  obtain ⟨x, z1, z2⟩ := bind_eq_ok y1
  simp only [pure, Except.pure, Except.ok.injEq] at z2
  subst z2
  split_ifs at y2
  rw [Except.ok.injEq] at y2
  subst y2
  have hx : Dichotomy.refinementMethod flt it' cv s.plan.invalid o.row o.col (gridsOf L) = .ok x := z1
  -- the steps
  obtain ⟨t1, t2, -⟩ := zone_size (by rw [e2]; exact hzone : ZoneOk L.img s.roi H W rf rl cf cl) hne
  have hst : s.plan.cfg.stepRow = 1 ∧ s.plan.cfg.stepCol = 1 := by
    by_contra hcon
    have hcon' : (2 ≤ s.plan.cfg.stepRow ∧ 2 ≤ L.img.h) ∨ (2 ≤ s.plan.cfg.stepCol ∧ 2 ≤ L.img.w) := by omega
    obtain ⟨e, he⟩ := C61_dichotomy_raises_with_step (f := flt) (it := it') (invalid := s.plan.invalid) hp b3 b1 r2 hcon' o.row o.col
    rw [hx] at he
    simp at he
  have hsave := s.saved
  rw [hmaps] at hsave
  simp only at hsave
  obtain ⟨files, after, v1, v2, v3⟩ := saved_zone hp b3 b1 b2 (by rw [e2]; exact hzone) r2 x.row.get x.col.get x.cost.get
    (w.crs s.leftJ) (w.transform s.leftJ)
  rw [v1, Except.ok.injEq, Prod.mk.injEq] at hsave
  obtain ⟨hfile, -⟩ := hsave
  rw [← hfile]
  have hur := uniform_of_config _ _ _ _ _ _ e5
  have huc := uniform_of_config _ _ _ _ _ _ e6
  obtain ⟨⟨d1, d2, d3, d4, d5⟩, hac, har, hwf, hinit⟩ := dicho_initial hp hur huc b4 b3 hst.1 hst.2 r2 r3
  have hs' : cv.subpixel = 2 ^ k := by rw [d1, hk]
  have hsv : 0 < cv.subpixel := by rw [d1]; exact b3
  obtain rfl := iterations_unique hitu q4
  -- the filter
  have hflt : IsKernel flt g it ∧ FitsMargins flt.left flt.up flt.size (refMargins c) ∧ (refMargins c).left = g.before ∧
      (refMargins c).right = g.size - 1 - g.before := by
    obtain ⟨fl, k1, k2⟩ := hker
    obtain ⟨fl', k1', k2'⟩ := q3
    rw [k1, Option.some.injEq, J.obj.injEq] at k1'
    subst k1'
    rcases k2 with ⟨k2, rfl⟩ | ⟨k2, N, hN, ⟨g1, g2⟩, ⟨s1, s2, s3⟩, hco⟩
    · rcases k2' with ⟨-, rfl, k4⟩ | ⟨k3, -⟩
      · rw [k4]
        exact ⟨bicubic_kernel q1, C46_bicubic_fits, rfl, rfl⟩
      · rw [k2] at k3; simp at k3
    · rcases k2' with ⟨k3, -⟩ | ⟨-, N', n1, n2, n3, rfl, k4⟩
      · rw [k2] at k3; simp at k3
      · have : (N : Int) = N' := IsInt.unique hN n3
        obtain rfl : N = N' := by exact_mod_cast this
        rw [k4]
        refine ⟨⟨s1, by rw [s2, g2], by rw [s3, g2], fun x h0 hx => ?_⟩, ?_, by rw [g2]; rfl, ?_⟩
        · obtain ⟨t1, j, hj, t2⟩ := fracPart_lattice q1 h0 hx
          obtain ⟨a, ha, hb, hc⟩ := hco j hj
          rw [t1, t2]
          exact ⟨a, ha, by rw [hb, s1], hc⟩
        · rw [s1, s2, s3, g1]
          simp only [FitsMargins, sincMargins]
          omega
        · rw [g1, g2]
          simp only [sincMargins]
          omega
  obtain ⟨hkern, hfit, mg1, mg2⟩ := hflt
  have ext : ∀ (d : Disp) (M : MinMax), Covers d L.img.row0 L.img.col0 L.img.h L.img.w →
      getMinMax L.img.row0 L.img.col0 L.img.h L.img.w d false = .ok M → RangesOk M L.img.h L.img.w →
      Extent d L.img M.src.1 M.src.2 := by
    intro d M hcv hM hok
    refine ⟨fun a ha b hb => ?_, ?_, ?_⟩
    · obtain ⟨t1, t2⟩ := configured_at hcv hM ha hb
      rw [← t1, ← t2]
      exact hok.inside a ha b hb
    · obtain ⟨a, ha, b, hb, t⟩ := hok.tightLo
      exact ⟨a, ha, b, hb, by rw [← (configured_at hcv hM ha hb).1, t]⟩
    · obtain ⟨a, ha, b, hb, t⟩ := hok.tightHi
      exact ⟨a, ha, b, hb, by rw [← (configured_at hcv hM ha hb).2, t]⟩
  have xr := ext dRow L.rowDisp e3 e5 hp.row
  have xc := ext dCol L.colDisp e4 e6 hp.col
  rw [e2] at xr xc
  refine ⟨by rw [← u1]; exact b3, hst.1, hst.2, dRow, dCol, k, L.rowDisp.src.1, L.rowDisp.src.2, L.colDisp.src.1, L.colDisp.src.2,
    widened L.colDisp.lo (-((refMargins c).left : Int)), widened L.colDisp.hi (refMargins c).right, by rw [← u1, hk], e7, e8, hzone, hsize,
    ⟨xr, xc⟩, ?_, ?_, fun f hf => ?_, fun i hi j hj => ?_⟩
  · intro x hx y hy
    rw [← e2] at hx hy ⊢
    have := (configured_at e4 e6 hx hy).1
    simp only [widened]
    omega
  · intro x hx y hy
    rw [← e2] at hx hy ⊢
    have := (configured_at e4 e6 hx hy).2
    simp only [widened]
    omega
  · obtain ⟨-, t1, t2, -⟩ := v2 f hf
    rw [hst.1, Nat.cast_one] at t1
    rw [hst.2, Nat.cast_one] at t2
    simp only [mul_one] at t1 t2
    exact ⟨t1, t2⟩
  · obtain ⟨r', hr', c', hc', g1, g2, g3, g4, g5⟩ := v3 i hi j hj
    have hpx : Pixel cv r' c' := ⟨hr', hc'⟩
    have key := volume_winner hp hur huc b4 b3 b1 b2 r2 r3 hpx
    rw [hst.1] at g1
    rw [hst.2] at g2
    rw [d4] at g1
    rw [d5] at g2
    have x1 : (cv.row.get r' - L.img.row0).toNat = r' := by rw [d4]; omega
    have x2 : (cv.col.get c' - L.img.col0).toNat = c' := by rw [d5]; omega
    obtain ⟨p1, p2⟩ := configured_at e3 e5 (r := r') (c := c') (by omega) (by omega)
    obtain ⟨p3, p4⟩ := configured_at e4 e6 (r := r') (c := c') (by omega) (by omega)
    have f1 : rf + (i : Int) = L.img.row0 + r' := by omega
    have f2 : cf + (j : Int) = L.img.col0 + c' := by omega
    have f3 : (rf + (i : Int) - s.left.img.row0).toNat = r' := by rw [← e2]; omega
    have f4 : (cf + (j : Int) - s.left.img.col0).toNat = c' := by rw [← e2]; omega
    set cost : K → K → F K := fun dr dc => pc s.left.img (slabImg w.run.zoom s.right.img n dr)
      (widened L.colDisp.lo (-((refMargins c).left : Int))) (widened L.colDisp.hi (refMargins c).right)
      (rf + (i : Int) - s.left.img.row0).toNat (cf + (j : Int) - s.left.img.col0).toNat dc with hcostdef
    refine ⟨⟨r', c', by rw [← e2]; omega, by rw [← e2]; omega, by rw [← e2]; exact f1, by rw [← e2]; exact f2⟩, o.row.get r' c',
      o.col.get r' c', o.score.get r' c', cost, fun _ _ => rfl, ?_, ?_⟩
    · unfold InRange at key
      rw [x1, x2, p1, p2, p3, p4, u1, u2, u3, e2] at key
      rw [hcostdef, f3, f4, f1, f2, e2]
      exact key
    · obtain ⟨-, -, -, -, -, -, x7, -⟩ := compute_char hp b3 b1 r2
      have hcell : ∀ ii < cv.dispCol.n, ∀ jj < cv.dispRow.n, cv.data r' c' ii jj =
          seen dRow dCol L.rowDisp.src.1 L.rowDisp.src.2 L.colDisp.src.1 L.colDisp.src.2 (rf + i) (cf + j) cost (cv.dispRow.get jj)
            (cv.dispCol.get ii) := by
        intro ii hii jj hjj
        have := cells_all hp hur huc b3 b1 b2 r2 hpx hii hjj
        unfold KeptDisp InRange at this
        rw [x1, x2, p1, p2, p3, p4, u1, u3, e2] at this
        unfold seen ReadDisp
        rw [hcostdef, f3, f4, f1, f2, e2]
        split_ifs with hc
        · exact this.1 hc
        · exact this.2 hc
      have hfin : ∀ x y, seen dRow dCol L.rowDisp.src.1 L.rowDisp.src.2 L.colDisp.src.1 L.colDisp.src.2 (rf + i) (cf + j) cost x y ≠ .ninf ∧
          seen dRow dCol L.rowDisp.src.1 L.rowDisp.src.2 L.colDisp.src.1 L.colDisp.src.2 (rf + i) (cf + j) cost x y ≠ .pinf := by
        intro x y
        unfold seen
        split_ifs
        · rw [u3] at b4
          exact b4.finite _ _ _ _ _ _ _
        · simp
      have ir := hp.row.inside r' (by omega) c' (by omega)
      have ic := hp.col.inside r' (by omega) c' (by omega)
      have res := method_searched hx hs' hac har hfit hkern hr' hc' ⟨ir.1, ir.2, ic.1, ic.2⟩ hcell hfin (hinit r' hr' c' hc')
      simp only [gridsOf] at res
      rw [p1, p2, p3, p4, x7, u2] at res
      rw [g3, g4, g5, f1, f2, show n = 2 ^ k by rw [← u1, hk]]
      rw [f1, f2] at res
      exact res

end

/-! ### The search is determined -/

section
variable {me : Measure} {val : K → K → F K} {it k : Nat} {x y : K} {v : F K}

theorem bestMove_unique {h : K} {s t : Int × Int} (a : BestMove me val h x y v s) (b : BestMove me val h x y v t) : s = t := by
  by_cases hf : ∀ t, Around t → tried val h x y v t = v
  · rw [a.flat hf, b.flat hf]
  · push Not at hf
    have anti : ∀ {p q : F K}, AtLeastAsGood me p q → AtLeastAsGood me q p → p = q := by
      intro p q h1 h2
      cases me
      · exact F.le_antisymm' h2 h1
      · exact F.le_antisymm' h1 h2
    have e := anti (a.best _ b.around b.number) (b.best _ a.around a.number)
    have h1 := a.first hf t b.around e.symm
    have h2 := b.first hf s a.around e
    exact Prod.ext (by omega) (by omega)

theorem path_unique {x1 y1 x2 y2 : K} {v1 v2 : F K} (a : Path me val it k x y v x1 y1 v1) (b : Path me val it k x y v x2 y2 v2) :
    x1 = x2 ∧ y1 = y2 ∧ v1 = v2 := by
  induction a with
  | stop h =>
    cases b with
    | stop => exact ⟨rfl, rfl, rfl⟩
    | move h' => omega
  | move h hs hp ih =>
    cases b with
    | stop h' => omega
    | move h' hs' hp' =>
      obtain rfl := bestMove_unique hs hs'
      exact ih hp'

/-- The disparities and the score after a dichotomy are determined by the pair it starts from and the costs. -/
theorem searchedPixel_unique {cost : K → K → F K} {lor hir loc hic : Int} {invalid row0 col0 row col score row' col' score' : F K}
    (h0 : (row0 = invalid ∨ col0 = invalid) ∨ ∃ x y, row0 = .fin x ∧ col0 = .fin y)
    (a : SearchedPixel me cost val k it lor hir loc hic invalid row0 col0 row col score)
    (b : SearchedPixel me cost val k it lor hir loc hic invalid row0 col0 row' col' score') : row = row' ∧ col = col' ∧ score = score' := by
  by_cases hi : row0 = invalid ∨ col0 = invalid
  · obtain ⟨e1, e2, e3⟩ := a.unusable hi
    obtain ⟨f1, f2, f3⟩ := b.unusable hi
    exact ⟨e1.trans f1.symm, e2.trans f2.symm, e3.trans f3.symm⟩
  · obtain ⟨x, y, hx, hy⟩ := h0.resolve_left hi
    push Not at hi
    by_cases hk : (AtEnd lor hir row0 ∨ AtEnd loc hic col0) ∨ cost x y = .nan
    · obtain ⟨e1, e2, e3⟩ := a.kept x y hx hy hi.1 hi.2 hk
      obtain ⟨f1, f2, f3⟩ := b.kept x y hx hy hi.1 hi.2 hk
      exact ⟨e1.trans f1.symm, e2.trans f2.symm, e3.trans f3.symm⟩
    · push Not at hk
      have hk1 : ¬ (AtEnd lor hir row0 ∨ AtEnd loc hic col0) := by
        rintro (h | h)
        · exact hk.1.1 h
        · exact hk.1.2 h
      obtain ⟨x1, y1, v1, e1, e2, e3, p1⟩ := a.searched x y hx hy hi.1 hi.2 hk1 hk.2
      obtain ⟨x2, y2, v2, f1, f2, f3, p2⟩ := b.searched x y hx hy hi.1 hi.2 hk1 hk.2
      obtain ⟨rfl, rfl, rfl⟩ := path_unique p1 p2
      exact ⟨e1.trans f1.symm, e2.trans f2.symm, e3.trans f3.symm⟩

end

/-- With the cardinal sine filter of the code, whose coefficients are real numbers, the kernel is the cardinal sine under a Gaussian. -/
theorem C119_sinc_kernel (w : World ℝ) (f fl : Fields) (it n : Nat) (hw : w.sinc = fun n m => cardinalSine n m)
    (hf : f.get "filter" = some (.obj fl)) (hm : fl.get "method" = some (.str "sinc"))
    (hn : IsInt true ((fl.get "size").getD (.int 6)) (n : Int)) : KernelIs w f it (sincKernel n) := by
  refine ⟨fl, hf, .inr ⟨hm, n, hn, ⟨rfl, rfl⟩, ?_, fun j hj => ?_⟩⟩
  · rw [hw]
    exact ⟨by simp only [cardinalSine, sincKernel]; omega, rfl, rfl⟩
  · obtain ⟨a, h1, h2, h3⟩ := sinc_weights n (2 ^ it) j hj
    push_cast at h1 h3
    rw [hw]
    exact ⟨a, h1, h2, h3⟩

theorem roiFor_none {user : Fields} {roi : Option Roi} (h : RoiFor user roi) : roi = none ↔ user.get "ROI" = none := by
  cases roi with
  | none => exact ⟨fun _ => h, fun _ => rfl⟩
  | some R =>
    obtain ⟨v, hv, -⟩ := h
    rw [hv]
    exact ⟨fun e => (Option.some_ne_none _ e).elim, fun e => (Option.some_ne_none _ e).elim⟩

/-- C119: for every successful execution with a dichotomy, without estimation, every ROI inside the image or none, subpixel factor `n = 2 ^ k`,
kind of initial disparities, cost and filter: each pixel of the rasters is obtained from its best pair, as defined for the executions without
refinement (C87), by the search with steps `1 / 2 ^ (k + 1)`, …, `1 / 2 ^ it` on the values interpolated by the kernel of the filter between its own
costs. It is kept when it is invalid, at an end of its interval or without cost, and its score is then its cost. -/
theorem C119_searched_files (w : World K) (user p0 mc inp l r f : Fields) (out : List (Written K)) (H W : Nat) (dRow dCol : Disp)
    (rf rl cf cl : Int) (sr sc : Nat) (invalid : F K) (n it : Nat) (me : Measure) (pc : Pandora.Cost K) (g : Kernel K) (hw : user.wf)
    (hdisk : DiskContract w H W) (hpan : PandoraContract w) (hkeeps : PandoraKeeps w.pandora) (hzoom : w.run.zoom = zoomLinear)
    (hu : user.get "pipeline" = some (.obj p0)) (he : p0.get "estimation" = none) (href : p0.get "refinement" = some (.obj f))
    (hm : f.get "refinement_method" = some (.str "dichotomy")) (hit : IterationsIs f it) (hker : KernelIs w f it g)
    (hmc : p0.get "matching_cost" = some (.obj mc)) (hmat : MatcherIs w mc n me pc)
    (ask : Asks w user H W dRow dCol rf rl cf cl sr sc invalid) (hne : rf < rl ∧ rl < H ∧ cf < cl ∧ cl < W)
    (hi : user.get "input" = some (.obj inp)) (hleft : inp.get "left" = some (.obj l)) (hright : inp.get "right" = some (.obj r))
    (h : Main.main w user = (out, none)) :
    ∃ files rest roi left right gmin gmax, ∃ (k : Nat) (fr lr fc lc : Int) (displaced : K → Img K), out = .rasters files :: rest ∧ n = 2 ^ k ∧
      (roi = none ↔ user.get "ROI" = none) ∧ ImagesRead w l r roi left right ∧ ReadZone left roi H W rf rl cf cl ∧
      (Extent dRow left fr lr ∧ Extent dCol left fc lc) ∧ GridIs gmin left dCol (-dCol.range - g.before) ∧ GridIs gmax left dCol (dCol.range + (g.size - 1 - g.before : Nat)) ∧
      (∀ dr : K, (∃ a : Int, dr * (n : K) = (a : K)) → Displaced (displaced dr) right dr) ∧
      (∀ f ∈ [files.row, files.col, files.score], (∀ i : Nat, i < f.h ↔ rf + (i : Int) ≤ rl) ∧ ∀ j : Nat, j < f.w ↔ cf + (j : Int) ≤ cl) ∧
      ∀ i < files.row.h, ∀ j < files.row.w, ∃ r0 c0 s0, ∃ cost : K → K → F K,
        (∀ dr dc, cost dr dc =
          pc left (displaced dr) gmin gmax (rf + (i : Int) - left.row0).toNat (cf + (j : Int) - left.col0).toNat dc) ∧
        BestPair me (AskedPair dRow dCol n (rf + i) (cf + j)) cost invalid r0 c0 s0 ∧
        SearchedPixel me (seen dRow dCol fr lr fc lc (rf + i) (cf + j) cost)
          (filtered g n (seen dRow dCol fr lr fc lc (rf + i) (cf + j) cost)) k it
          (initAt dRow (rf + i) (cf + j) - dRow.range) (initAt dRow (rf + i) (cf + j) + dRow.range)
          (initAt dCol (rf + i) (cf + j) - dCol.range) (initAt dCol (rf + i) (cf + j) + dCol.range) invalid r0 c0
          (files.row.values i j) (files.col.values i j) (files.score.values i j) := by
  have hd : "disparity" ∈ p0.keys := by
    obtain ⟨pl, mc', disp, a1, a2, a3, -⟩ := ask.steps
    rw [hu, Option.some.injEq, J.obj.injEq] at a1
    subst a1
    exact (Fields.get_isSome _ _).1 (by rw [a3]; rfl)
  obtain ⟨s⟩ := main_stages w user p0 out hw hpan hu hd h
  obtain ⟨hn, -, -, dRow', dCol', k, fr, lr, fc, lc, gmin, gmax, k1, -, i1, i2, i3, i4, i5, i6, iz, i7⟩ :=
    s.searchedWinner hdisk hkeeps hw hu ask.zone hne href hm hit hker hmc hmat
  obtain ⟨j1, j2⟩ := i1 he
  obtain ⟨⟨rfl, rfl⟩, -, rfl⟩ := s.asked hw hu he ask j1 j2
  refine ⟨s.files, _, s.roi, s.left.img, s.right.img, gmin, gmax, k, fr, lr, fc, lc, slabImg w.run.zoom s.right.img n, s.outIs, k1,
    roiFor_none s.roiFor, s.images hw hi hleft hright, i2, i4, i5, i6, fun dr hdr => ?_, iz, fun i hi' j hj => (i7 i hi' j hj).2⟩
  rw [hzoom]
  exact slab_displaced _ _ hn _ hdr

/-- The hypotheses of `C119_searched_files` hold: a dichotomy of one iteration with the bicubic filter. -/
example := C119_searched_files exWorldD exUserD _ _ _ _ _ _ _ 7 7 _ _ 0 6 0 6 1 1 .nan 1 1 _ _ keysKernel exUserD_wf exWorldD_disk
  ⟨exWorldI_contract.pandora.subpix, exWorldI_contract.pandora.cost⟩ ⟨exWorldI_contract.keeps.numbers, exWorldI_contract.keeps.again⟩
  rfl rfl rfl rfl rfl ⟨_, 1, rfl, .inl rfl, rfl⟩ ⟨_, rfl, .inl ⟨rfl, rfl⟩⟩ rfl ⟨_, _, _, _, _, _, rfl, rfl, rfl, .inl rfl, rfl, rfl⟩
  exUserD_asks (by decide) rfl rfl rfl exUserD_ok

end Verif.Props
