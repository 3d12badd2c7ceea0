import Verif.Spec.Dichotomised
import Verif.Props.Searched
import Verif.Props.Radiometry
import Verif.Props.Local

/-!
# C120, C121, C122: two executions with a dichotomy
-/

namespace Verif.Props

open Verif Verif.Config Verif.Machine Verif.ImgTools Verif.MatchingCost Verif.Disparity Verif.Run Verif.Main Verif.Spec Verif.Save
  Verif.Statistics

set_option linter.unusedSectionVars false

variable {K : Type} [Field K] [LinearOrder K] [IsStrictOrderedRing K] [FloorRing K]

/-! ### Scaled costs -/

theorem scaled_nan {α : K} (hα : 0 < α) (s : F K) : F.mul (.fin α) s = .nan ↔ s = .nan := by
  cases s <;> simp [F.mul, hα, hα.ne']

theorem scaled_le {α : K} (hα : 0 < α) (s t : F K) : F.le (F.mul (.fin α) s) (F.mul (.fin α) t) = F.le s t := by
  cases s <;> cases t <;> simp [F.mul, F.le, hα, hα.ne']

theorem scaled_inj {α : K} (hα : 0 < α) {s t : F K} (h : F.mul (.fin α) s = F.mul (.fin α) t) : s = t := by
  cases s <;> cases t <;> simp_all [F.mul, hα.ne']

theorem scaled_good {me : Measure} {α : K} (hα : 0 < α) (s t : F K) :
    AtLeastAsGood me (F.mul (.fin α) s) (F.mul (.fin α) t) ↔ AtLeastAsGood me s t := by
  cases me <;> simp only [AtLeastAsGood, scaled_le hα]

theorem amount_scaled {α : K} (hα : 0 < α) (s : F K) : amount (F.mul (.fin α) s) = α * amount s := by
  cases s <;> simp [F.mul, amount, hα, hα.ne']

/-- The interpolated value of scaled costs. -/
theorem filtered_scaled {α : K} (hα : 0 < α) {g : Kernel K} {n : Nat} {cost cost' : K → K → F K} {x y : K}
    (h : ∀ a < g.size, ∀ b < g.size, cost' (node g n x a) (node g n y b) = F.mul (.fin α) (cost (node g n x a) (node g n y b))) :
    filtered g n cost' x y = F.mul (.fin α) (filtered g n cost x y) := by
  have e : (∃ a < g.size, ∃ b < g.size, cost' (node g n x a) (node g n y b) = .nan) ↔
      ∃ a < g.size, ∃ b < g.size, cost (node g n x a) (node g n y b) = .nan := by
    constructor
    · rintro ⟨a, ha, b, hb, q⟩
      exact ⟨a, ha, b, hb, by rwa [h a ha b hb, scaled_nan hα] at q⟩
    · rintro ⟨a, ha, b, hb, q⟩
      exact ⟨a, ha, b, hb, by rwa [h a ha b hb, scaled_nan hα]⟩
  unfold filtered
  by_cases q : ∃ a < g.size, ∃ b < g.size, cost (node g n x a) (node g n y b) = .nan
  · rw [if_pos q, if_pos (e.2 q)]
    exact ((scaled_nan hα _).2 rfl).symm
  · rw [if_neg q, if_neg fun t => q (e.1 t)]
    show F.fin _ = F.fin _
    congr 1
    rw [Finset.mul_sum]
    refine Finset.sum_congr rfl fun a ha => ?_
    rw [Finset.mul_sum]
    refine Finset.sum_congr rfl fun b hb => ?_
    rw [Finset.mem_range] at ha hb
    rw [h a ha b hb, amount_scaled hα]
    ring

theorem tried_scaled {α : K} {val val' : K → K → F K} {h x y : K} {v : F K} {s : Int × Int}
    (hv : val' (x + s.1 * h) (y + s.2 * h) = F.mul (.fin α) (val (x + s.1 * h) (y + s.2 * h))) :
    tried val' h x y (F.mul (.fin α) v) s = F.mul (.fin α) (tried val h x y v s) := by
  unfold tried
  split_ifs
  · rfl
  · exact hv

theorem around_near {s : Int × Int} (hs : Around s) {k : Nat} (x : K) :
    |x + s.1 * (1 / 2 ^ (k + 1)) - x| ≤ 1 / 2 ^ (k + 1) ∧ |x + s.2 * (1 / 2 ^ (k + 1)) - x| ≤ 1 / 2 ^ (k + 1) := by
  have hp : (0 : K) < 1 / 2 ^ (k + 1) := by positivity
  have key : ∀ z : Int, -1 ≤ z → z ≤ 1 → |x + z * (1 / 2 ^ (k + 1)) - x| ≤ 1 / 2 ^ (k + 1) := by
    intro z h1 h2
    have e : x + (z : K) * (1 / 2 ^ (k + 1)) - x = z * (1 / 2 ^ (k + 1)) := by ring
    have hz : |(z : K)| ≤ 1 := by
      rw [abs_le]
      exact ⟨by exact_mod_cast h1, by exact_mod_cast h2⟩
    rw [e, abs_mul, abs_of_pos hp]
    calc |(z : K)| * (1 / 2 ^ (k + 1)) ≤ 1 * (1 / 2 ^ (k + 1)) := mul_le_mul_of_nonneg_right hz hp.le
      _ = _ := one_mul _
  exact ⟨key _ hs.1.1 hs.1.2, key _ hs.2.1 hs.2.2⟩

theorem half_step (k : Nat) : (1 : K) / 2 ^ (k + 1) + 1 / 2 ^ (k + 1) = 1 / 2 ^ k := by
  rw [pow_succ]
  field_simp
  norm_num

/-- The search on values scaled near its start. -/
theorem path_scaled {α : K} (hα : 0 < α) {me : Measure} {val val' : K → K → F K} {it k : Nat} {x y x1 y1 : K} {v v1 : F K}
    (p : Path me val it k x y v x1 y1 v1)
    (hv : ∀ x' y' : K, |x' - x| < 1 / 2 ^ k → |y' - y| < 1 / 2 ^ k → val' x' y' = F.mul (.fin α) (val x' y')) :
    Path me val' it k x y (F.mul (.fin α) v) x1 y1 (F.mul (.fin α) v1) := by
  induction p with
  | stop h => exact .stop h
  | @move k x y v s x' y' v' h hs hp ih =>
    have hp0 : (0 : K) < 1 / 2 ^ (k + 1) := by positivity
    have hh := half_step (K := K) k
    have tr : ∀ t, Around t → tried val' (1 / 2 ^ (k + 1)) x y (F.mul (.fin α) v) t = F.mul (.fin α) (tried val (1 / 2 ^ (k + 1)) x y v t) := by
      intro t ht
      refine tried_scaled (hv _ _ ?_ ?_)
      · have := (around_near ht (k := k) x).1
        linarith
      · have := (around_near ht (k := k) y).2
        linarith
    refine .move h (s := s) ⟨hs.around, ?_, fun t ht hn => ?_, fun hf => hs.flat fun t ht => ?_, fun hf t ht e => ?_⟩ ?_
    · rw [tr _ hs.around, Ne, scaled_nan hα]
      exact hs.number
    · rw [tr _ ht, Ne, scaled_nan hα] at hn
      rw [tr _ ht, tr _ hs.around, scaled_good hα]
      exact hs.best t ht hn
    · have := hf t ht
      rw [tr _ ht] at this
      exact scaled_inj hα this
    · rw [tr _ ht, tr _ hs.around] at e
      refine hs.first ?_ t ht (scaled_inj hα e)
      obtain ⟨u, hu, q⟩ := hf
      rw [tr _ hu] at q
      exact ⟨u, hu, fun z => q (by rw [z])⟩
    · rw [tr _ hs.around]
      refine ih fun a b ha hb => hv a b ?_ ?_
      · have h1 := (around_near hs.around (k := k) x).1
        have h2 := abs_add_le (a - (x + s.1 * (1 / 2 ^ (k + 1)))) (x + s.1 * (1 / 2 ^ (k + 1)) - x)
        rw [show a - (x + s.1 * (1 / 2 ^ (k + 1))) + (x + s.1 * (1 / 2 ^ (k + 1)) - x) = a - x by ring] at h2
        linarith
      · have h1 := (around_near hs.around (k := k) y).2
        have h2 := abs_add_le (b - (y + s.2 * (1 / 2 ^ (k + 1)))) (y + s.2 * (1 / 2 ^ (k + 1)) - y)
        rw [show b - (y + s.2 * (1 / 2 ^ (k + 1))) + (y + s.2 * (1 / 2 ^ (k + 1)) - y) = b - y by ring] at h2
        linarith

/-- The samples read near a multiple of `1 / n` strictly inside an interval are in the extended interval. -/
theorem node_inside {g : Kernel K} {n : Nat} (hn : 0 < n) {lo hi : Int} {x0 x : K} (hm : ∃ m : Int, x0 * n = m)
    (hi0 : (lo : K) < x0 ∧ x0 < (hi : K)) (hx : |x - x0| < 1 / n) {a : Nat} (ha : a < g.size) :
    (∃ m : Int, node g n x a * n = m) ∧ ((lo - g.before : Int) : K) ≤ node g n x a ∧
      node g n x a ≤ ((hi + (g.size - 1 - g.before : Nat) : Int) : K) := by
  obtain ⟨m, hm⟩ := hm
  have hn' : (0 : K) < n := by exact_mod_cast hn
  have e : node g n x a * n = ((⌊x * n⌋ - g.before + a : Int) : K) := by
    unfold node
    field_simp
  have b1 : lo * n + 1 ≤ m := by
    have : (lo : K) * n < m := by rw [← hm]; exact mul_lt_mul_of_pos_right hi0.1 hn'
    have : lo * (n : Int) < m := by exact_mod_cast this
    omega
  have b2 : m + 1 ≤ hi * n := by
    have : (m : K) < hi * n := by rw [← hm]; exact mul_lt_mul_of_pos_right hi0.2 hn'
    have : m < hi * (n : Int) := by exact_mod_cast this
    omega
  have b3 : |x * n - m| < 1 := by
    rw [← hm, ← sub_mul, abs_mul, abs_of_pos hn']
    calc |x - x0| * n < 1 / n * n := mul_lt_mul_of_pos_right hx hn'
      _ = 1 := by field_simp
  rw [abs_lt] at b3
  have f1 : m - 1 ≤ ⌊x * n⌋ := by
    rw [Int.le_floor]
    push_cast
    linarith
  have f2 : ⌊x * n⌋ ≤ m := by
    have := Int.floor_le (x * n)
    have h2 : ((⌊x * n⌋ : Int) : K) < ((m + 1 : Int) : K) := by
      push_cast
      linarith
    have : ⌊x * n⌋ < m + 1 := by exact_mod_cast h2
    omega
  refine ⟨⟨_, e⟩, ?_, ?_⟩
  · refine le_of_mul_le_mul_right ?_ hn'
    rw [e]
    have : (g.before : Int) ≤ g.before * n := by
      have := Nat.le_mul_of_pos_right g.before hn
      exact_mod_cast this
    have : (lo - g.before) * (n : Int) ≤ ⌊x * n⌋ - g.before + a := by
      rw [sub_mul]
      omega
    exact_mod_cast this
  · refine le_of_mul_le_mul_right ?_ hn'
    rw [e]
    have : ((g.size - 1 - g.before : Nat) : Int) ≤ (g.size - 1 - g.before : Nat) * n := by
      have := Nat.le_mul_of_pos_right (g.size - 1 - g.before) hn
      exact_mod_cast this
    have : ⌊x * n⌋ - g.before + a ≤ (hi + (g.size - 1 - g.before : Nat)) * (n : Int) := by
      rw [add_mul]
      omega
    exact_mod_cast this

/-- The same intervals have the same first and last disparities. -/
theorem extent_same {d d' : Disp} {left left' : Img K} {H W : Nat} {f l f' l' : Int} (hs : left.h = H ∧ left.w = W) (hs' : left'.h = H ∧ left'.w = W)
    (h0 : left.row0 = 0 ∧ left.col0 = 0) (h0' : left'.row0 = 0 ∧ left'.col0 = 0)
    (hi : ∀ x < H, ∀ y < W, SameIntervalMoved d d' x y x y) (h : Extent d left f l) (h' : Extent d' left' f' l') : f' = f ∧ l' = l := by
  obtain ⟨⟨e1, e2⟩, e3, e4⟩ := And.intro h0 h0'
  have a1 := h.inside
  have a2 := h'.inside
  obtain ⟨u1, hu1, v1, hv1, w1⟩ := h.reached
  obtain ⟨u2, hu2, v2, hv2, w2⟩ := h.reached'
  obtain ⟨u3, hu3, v3, hv3, w3⟩ := h'.reached
  obtain ⟨u4, hu4, v4, hv4, w4⟩ := h'.reached'
  rw [hs.1] at hu1 hu2 a1
  rw [hs.2] at hv1 hv2 a1
  rw [hs'.1] at hu3 hu4 a2
  rw [hs'.2] at hv3 hv4 a2
  rw [e1, e2] at w1 w2 a1
  rw [e3, e4] at w3 w4 a2
  simp only [zero_add] at w1 w2 w3 w4 a1 a2
  obtain ⟨i1, -⟩ := hi u1 hu1 v1 hv1
  obtain ⟨-, i2⟩ := hi u2 hu2 v2 hv2
  obtain ⟨i3, -⟩ := hi u3 hu3 v3 hv3
  obtain ⟨-, i4⟩ := hi u4 hu4 v4 hv4
  have b1 := (a2 u1 hu1 v1 hv1).1
  have b2 := (a2 u2 hu2 v2 hv2).2
  have b3 := (a1 u3 hu3 v3 hv3).1
  have b4 := (a1 u4 hu4 v4 hv4).2
  constructor <;> omega

/-! ### One pixel of two executions -/

section
variable {me : Measure} {dRow dCol dRow' dCol' : Disp} {n k it : Nat} {g : Kernel K} {r c fr lr fc lc : Int} {cost cost' : K → K → F K}
  {invalid r0 c0 s0 row col score r1 c1 s1 row' col' score' : F K} {α : K}

/-- The costs of the second execution are those of the first one, scaled. -/
theorem searched_scaled (hα : 0 < α) (hn : n = 2 ^ k) (ir : SameIntervalMoved dRow dRow' r c r c) (ic : SameIntervalMoved dCol dCol' r c r c)
    (hc : ∀ x y, ReadPair dRow dCol n g.before (g.size - 1 - g.before) r c x y → cost' x y = F.mul (.fin α) (cost x y))
    (b : BestPair me (AskedPair dRow dCol n r c) cost invalid r0 c0 s0)
    (p : SearchedPixel me (seen dRow dCol fr lr fc lc r c cost) (filtered g n (seen dRow dCol fr lr fc lc r c cost)) k it
      (initAt dRow r c - dRow.range) (initAt dRow r c + dRow.range) (initAt dCol r c - dCol.range) (initAt dCol r c + dCol.range)
      invalid r0 c0 row col score)
    (b' : BestPair me (AskedPair dRow' dCol' n r c) cost' invalid r1 c1 s1)
    (p' : SearchedPixel me (seen dRow' dCol' fr lr fc lc r c cost') (filtered g n (seen dRow' dCol' fr lr fc lc r c cost')) k it
      (initAt dRow' r c - dRow'.range) (initAt dRow' r c + dRow'.range) (initAt dCol' r c - dCol'.range) (initAt dCol' r c + dCol'.range)
      invalid r1 c1 row' col' score') :
    row' = row ∧ col' = col ∧ score' = F.mul (.fin α) score := by
  have hnp : 0 < n := by rw [hn]; positivity
  obtain ⟨u1, u2⟩ := ir
  obtain ⟨u3, u4⟩ := ic
  rw [← u1, ← u2, ← u3, ← u4] at p'
  have hask : ∀ x y : K, AskedPair dRow' dCol' n r c x y ↔ AskedPair dRow dCol n r c x y := by
    intro x y
    unfold AskedPair
    rw [u1, u2, u3, u4]
  have wide : ∀ x y : K, AskedPair dRow dCol n r c x y → ReadPair dRow dCol n g.before (g.size - 1 - g.before) r c x y := by
    rintro x y ⟨h1, ⟨h2, h3⟩, h4, h5⟩
    exact ⟨h1, ⟨le_trans (Int.cast_le.2 (by omega)) h2, le_trans h3 (Int.cast_le.2 (by omega))⟩,
      le_trans (Int.cast_le.2 (by omega)) h4, le_trans h5 (Int.cast_le.2 (by omega))⟩
  have hseen : ∀ x y, ReadPair dRow dCol n g.before (g.size - 1 - g.before) r c x y →
      seen dRow' dCol' fr lr fc lc r c cost' x y = F.mul (.fin α) (seen dRow dCol fr lr fc lc r c cost x y) := by
    intro x y h
    unfold seen ReadDisp
    rw [← u1, ← u2, ← u3, ← u4]
    split_ifs
    · exact hc x y h
    · exact ((scaled_nan hα _).2 rfl).symm
  have b2 := best_asked hask b'
  rcases best_seen (scaled_nan hα) (scaled_le hα) (fun x y q => hc x y (wide x y q)) b b2 with ⟨i1, i2, i3, i4, i5, i6⟩ | ⟨hs, rfl, rfl, -⟩
  · obtain ⟨e1, e2, e3⟩ := p.unusable (.inl i1)
    obtain ⟨e4, e5, e6⟩ := p'.unusable (.inl i4)
    rw [e1, e2, e3, e4, e5, e6, i1, i2, i4, i5]
    exact ⟨rfl, rfl, ((scaled_nan hα _).2 rfl).symm⟩
  · by_cases hu : r1 = invalid ∨ c1 = invalid
    · obtain ⟨e1, e2, e3⟩ := p.unusable hu
      obtain ⟨e4, e5, e6⟩ := p'.unusable hu
      rw [e1, e2, e3, e4, e5, e6]
      exact ⟨rfl, rfl, ((scaled_nan hα _).2 rfl).symm⟩
    · push Not at hu
      by_cases hex : ∃ x y, AskedPair dRow dCol n r c x y ∧ cost x y ≠ .nan
      swap
      · push Not at hex
        exact absurd (b.invalid hex).1 hu.1
      obtain ⟨x0, y0, ex, ey, ⟨y', q1, -⟩, ⟨x', q2, -⟩, -⟩ := b.smallest hex
      obtain ⟨⟨m1, -, hm1, -⟩, hx, -⟩ := q1
      obtain ⟨⟨-, m2, -, hm2⟩, -, hy⟩ := q2
      have hpair : AskedPair dRow dCol n r c x0 y0 := ⟨⟨m1, m2, hm1, hm2⟩, hx, hy⟩
      have hs0 := hseen x0 y0 (wide _ _ hpair)
      by_cases hk : (AtEnd (initAt dRow r c - dRow.range) (initAt dRow r c + dRow.range) r1 ∨
          AtEnd (initAt dCol r c - dCol.range) (initAt dCol r c + dCol.range) c1) ∨ seen dRow dCol fr lr fc lc r c cost x0 y0 = .nan
      · obtain ⟨e1, e2, e3⟩ := p.kept x0 y0 ex ey hu.1 hu.2 hk
        obtain ⟨e4, e5, e6⟩ := p'.kept x0 y0 ex ey hu.1 hu.2 (by rw [hs0, scaled_nan hα]; exact hk)
        rw [e1, e2, e3, e4, e5, e6, hs0]
        exact ⟨rfl, rfl, rfl⟩
      · rw [not_or] at hk
        obtain ⟨x1, y1, v1, e1, e2, e3, t1⟩ := p.searched x0 y0 ex ey hu.1 hu.2 hk.1 hk.2
        obtain ⟨x2, y2, v2, e4, e5, e6, t2⟩ := p'.searched x0 y0 ex ey hu.1 hu.2 hk.1 (by rw [hs0, Ne, scaled_nan hα]; exact hk.2)
        have hk1 := hk.1
        rw [not_or] at hk1
        obtain ⟨k1, k2⟩ := hk1
        unfold AtEnd at k1 k2
        rw [ex, F.fin.injEq, F.fin.injEq, not_or] at k1
        rw [ey, F.fin.injEq, F.fin.injEq, not_or] at k2
        have hxs : (((initAt dRow r c - dRow.range : Int)) : K) < x0 ∧ x0 < ((initAt dRow r c + dRow.range : Int) : K) :=
          ⟨lt_of_le_of_ne hx.1 (Ne.symm k1.1), lt_of_le_of_ne hx.2 k1.2⟩
        have hys : (((initAt dCol r c - dCol.range : Int)) : K) < y0 ∧ y0 < ((initAt dCol r c + dCol.range : Int) : K) :=
          ⟨lt_of_le_of_ne hy.1 (Ne.symm k2.1), lt_of_le_of_ne hy.2 k2.2⟩
        have hnk : (1 : K) / n = 1 / 2 ^ k := by rw [hn]; push_cast; rfl
        have t3 := path_scaled hα t1 (val' := filtered g n (seen dRow' dCol' fr lr fc lc r c cost')) fun x y h1 h2 => by
          rw [← hnk] at h1 h2
          refine filtered_scaled hα fun a ha b hb => hseen _ _ ?_
          obtain ⟨⟨z1, w1⟩, w2, w3⟩ := node_inside hnp ⟨m1, hm1⟩ hxs h1 ha
          obtain ⟨⟨z2, w4⟩, w5, w6⟩ := node_inside hnp ⟨m2, hm2⟩ hys h2 hb
          exact ⟨⟨z1, z2, w1, w4⟩, ⟨w2, w3⟩, w5, w6⟩
        rw [hs0] at t2
        obtain ⟨rfl, rfl, rfl⟩ := path_unique t2 t3
        rw [e1, e2, e3, e4, e5, e6]
        exact ⟨rfl, rfl, rfl⟩

end

/-! ### More iterations -/

section
variable {me : Measure} {val : K → K → F K} {it it' k : Nat} {x y x1 y1 x2 y2 : K} {v v1 v2 : F K}

theorem path_near (p : Path me val it k x y v x1 y1 v1) (hk : k ≤ it) (hv : v ≠ .nan) :
    |x1 - x| ≤ 1 / 2 ^ k - 1 / 2 ^ it ∧ |y1 - y| ≤ 1 / 2 ^ k - 1 / 2 ^ it ∧ v1 ≠ .nan ∧ AtLeastAsGood me v1 v := by
  have refl : ∀ u : F K, u ≠ .nan → AtLeastAsGood me u u := by
    intro u hu
    cases me <;> cases u <;> simp_all [AtLeastAsGood, F.le]
  have trans : ∀ a b c : F K, AtLeastAsGood me a b → AtLeastAsGood me b c → AtLeastAsGood me a c := by
    intro a b c
    cases me <;> cases a <;> cases b <;> cases c <;> simp only [AtLeastAsGood, F.le, decide_eq_true_eq] <;> intros <;>
      first | trivial | linarith
  induction p with
  | @stop k x y v h =>
    obtain rfl : k = it := by omega
    simp only [sub_self, abs_zero, le_refl, true_and]
    exact ⟨hv, refl _ hv⟩
  | @move k x y v s x' y' v' h hs hp ih =>
    obtain ⟨i1, i2, i3, i4⟩ := ih (by omega) hs.number
    have hh := half_step (K := K) k
    have o : Around (0, 0) := ⟨⟨by decide, by decide⟩, by decide, by decide⟩
    have t0 : tried val (1 / 2 ^ (k + 1)) x y v (0, 0) = v := by simp [tried]
    have i5 := hs.best (0, 0) o (by rw [t0]; exact hv)
    rw [t0] at i5
    refine ⟨?_, ?_, i3, trans _ _ _ i4 i5⟩
    · have h1 := (around_near hs.around (k := k) x).1
      have h2 := abs_add_le (x' - (x + s.1 * (1 / 2 ^ (k + 1)))) (x + s.1 * (1 / 2 ^ (k + 1)) - x)
      rw [show x' - (x + s.1 * (1 / 2 ^ (k + 1))) + (x + s.1 * (1 / 2 ^ (k + 1)) - x) = x' - x by ring] at h2
      linarith
    · have h1 := (around_near hs.around (k := k) y).2
      have h2 := abs_add_le (y' - (y + s.2 * (1 / 2 ^ (k + 1)))) (y + s.2 * (1 / 2 ^ (k + 1)) - y)
      rw [show y' - (y + s.2 * (1 / 2 ^ (k + 1))) + (y + s.2 * (1 / 2 ^ (k + 1)) - y) = y' - y by ring] at h2
      linarith

/-- A longer search goes on from the end of the shorter one. -/
theorem path_onward (hle : it ≤ it') (p : Path me val it k x y v x1 y1 v1) (p' : Path me val it' k x y v x2 y2 v2) :
    Path me val it' (max it k) x1 y1 v1 x2 y2 v2 := by
  induction p with
  | @stop k x y v h =>
    rw [max_eq_right h]
    exact p'
  | @move k x y v s x' y' v' h hs hp ih =>
    cases p' with
    | stop h' => omega
    | move h' hs' hp' =>
      obtain rfl := bestMove_unique hs hs'
      have := ih hp'
      rw [max_eq_left (by omega : k + 1 ≤ it)] at this
      rw [max_eq_left (by omega : k ≤ it)]
      exact this

theorem path_number (p : Path me val it k x y v x1 y1 v1) (hv : v ≠ .nan) : v1 ≠ .nan := by
  induction p with
  | stop h => exact hv
  | move h hs hp ih => exact ih hs.number

theorem path_further (hle : it ≤ it') (hv : v ≠ .nan) (p : Path me val it k x y v x1 y1 v1) (p' : Path me val it' k x y v x2 y2 v2) :
    FurtherPixel me (1 / 2 ^ it - 1 / 2 ^ it') (.fin x1) (.fin y1) v1 (.fin x2) (.fin y2) v2 := by
  have q := path_onward hle p p'
  have hv1 := path_number p hv
  by_cases hk : max it k ≤ it'
  · obtain ⟨a1, a2, a3, a4⟩ := path_near q hk hv1
    have hm : (1 : K) / 2 ^ max it k ≤ 1 / 2 ^ it :=
      one_div_le_one_div_of_le (by positivity) (pow_le_pow_right₀ (by norm_num) (le_max_left _ _))
    exact .inr ⟨x1, y1, x2, y2, ⟨rfl, rfl, rfl, rfl⟩, ⟨by linarith, by linarith⟩, ⟨hv1, a3⟩, a4⟩
  · cases q with
    | stop h => exact .inl ⟨rfl, rfl, rfl⟩
    | move h => omega

/-- The same search with more iterations. -/
theorem searched_further {cost : K → K → F K} {lor hir loc hic : Int} {invalid row0 col0 row col score row' col' score' : F K}
    (h0 : (row0 = invalid ∨ col0 = invalid) ∨ ∃ x y, row0 = .fin x ∧ col0 = .fin y) (hle : it ≤ it')
    (a : SearchedPixel me cost val k it lor hir loc hic invalid row0 col0 row col score)
    (b : SearchedPixel me cost val k it' lor hir loc hic invalid row0 col0 row' col' score') :
    FurtherPixel me (1 / 2 ^ it - 1 / 2 ^ it') row col score row' col' score' := by
  by_cases hi : row0 = invalid ∨ col0 = invalid
  · obtain ⟨e1, e2, e3⟩ := a.unusable hi
    obtain ⟨f1, f2, f3⟩ := b.unusable hi
    exact .inl ⟨f1.trans e1.symm, f2.trans e2.symm, f3.trans e3.symm⟩
  · obtain ⟨x, y, hx, hy⟩ := h0.resolve_left hi
    push Not at hi
    by_cases hk : (AtEnd lor hir row0 ∨ AtEnd loc hic col0) ∨ cost x y = .nan
    · obtain ⟨e1, e2, e3⟩ := a.kept x y hx hy hi.1 hi.2 hk
      obtain ⟨f1, f2, f3⟩ := b.kept x y hx hy hi.1 hi.2 hk
      exact .inl ⟨f1.trans e1.symm, f2.trans e2.symm, f3.trans e3.symm⟩
    · rw [not_or] at hk
      obtain ⟨x1, y1, v1, e1, e2, e3, p1⟩ := a.searched x y hx hy hi.1 hi.2 hk.1 hk.2
      obtain ⟨x2, y2, v2, f1, f2, f3, p2⟩ := b.searched x y hx hy hi.1 hi.2 hk.1 hk.2
      rw [e1, e2, e3, f1, f2, f3]
      exact path_further hle hk.2 p1 p2

end

/-! ### Whole executions -/

section
variable {w : World K} {user p mc inp l r f : Fields} {H W : Nat} {dRow dCol : Disp} {invalid : F K} {n hw : Nat} {me : Measure}
  {ker : List (F K × F K) → F K} {it : Nat} {g : Kernel K} {out : List (Written K)}

theorem dichotomised_stages (cfg : Dichotomised w user p mc inp l r f H W dRow dCol invalid n hw me ker it g) (wf : user.wf)
    (hpan : PandoraContract w) (h : Main.main w user = (out, none)) : Nonempty (Stages w user p out) := by
  obtain ⟨sr, sc, ask⟩ := cfg.asks
  refine main_stages w user p out wf hpan cfg.pipeline ?_ h
  obtain ⟨pl, mc, disp, a1, a2, a3, -⟩ := ask.steps
  rw [cfg.pipeline, Option.some.injEq, J.obj.injEq] at a1
  subst a1
  exact (Fields.get_isSome _ _).1 (by rw [a3]; rfl)

/-- The pixels of an execution with a dichotomy on full images. -/
theorem Stages.dichotomised (s : Stages w user p out)
    (cfg : Dichotomised w user p mc inp l r f H W dRow dCol invalid n hw me ker it g) (wf : user.wf)
    (hdisk : DiskContract w H W) (hkeeps : PandoraKeeps w.pandora) (hzoom : w.run.zoom = zoomLinear) (hHW : 2 ≤ H ∧ 2 ≤ W) :
    ∃ (k : Nat) (fr lr fc lc : Int) (gmin gmax : Arr2 Int), n = 2 ^ k ∧ ImagesRead w l r none s.left.img s.right.img ∧
      ((s.left.img.h = H ∧ s.left.img.w = W) ∧ s.right.img.h = H ∧ s.right.img.w = W) ∧ (s.left.img.row0 = 0 ∧ s.left.img.col0 = 0) ∧
      (Extent dRow s.left.img fr lr ∧ Extent dCol s.left.img fc lc) ∧
      (∀ a < H, ∀ b < W, gmin.get a b = initAt dCol a b - dCol.range - g.before ∧
        gmax.get a b = initAt dCol a b + dCol.range + (g.size - 1 - g.before : Nat)) ∧
      (∀ f ∈ [s.files.row, s.files.col, s.files.score], f.h = H ∧ f.w = W) ∧
      ∀ a < H, ∀ b < W, ∃ r0 c0 s0, ∃ cost : K → K → F K,
        (∀ x y, cost x y = Pandora.windowCost hw ker s.left.img (slabImg zoomLinear s.right.img n x) gmin gmax a b y) ∧
        BestPair me (AskedPair dRow dCol n a b) cost invalid r0 c0 s0 ∧
        SearchedPixel me (seen dRow dCol fr lr fc lc a b cost) (filtered g n (seen dRow dCol fr lr fc lc a b cost)) k it
          (initAt dRow a b - dRow.range) (initAt dRow a b + dRow.range) (initAt dCol a b - dCol.range) (initAt dCol a b + dCol.range) invalid r0 c0
          (s.files.row.values a b) (s.files.col.values a b) (s.files.score.values a b) := by
  obtain ⟨sr, sc, ask⟩ := cfg.asks
  obtain ⟨hn, -, -, dRow', dCol', k, fr, lr, fc, lc, gmin, gmax, k1, -, i1, i2, i3, i4, i5, i6, iz, i7⟩ :=
    s.searchedWinner hdisk hkeeps wf cfg.pipeline ask.zone (by omega) cfg.refinement cfg.method cfg.iterations cfg.kernel cfg.cost cfg.matcher
  obtain ⟨j1, j2⟩ := i1 cfg.noEstimation
  obtain ⟨⟨rfl, rfl⟩, -, rfl⟩ := s.asked wf cfg.pipeline cfg.noEstimation ask j1 j2
  have hnone : s.roi = none := by
    have r1 := s.roiFor
    cases hx : s.roi with
    | none => rfl
    | some R =>
      rw [hx] at r1
      obtain ⟨v, hv, -⟩ := r1
      rw [cfg.full] at hv; simp at hv
  have im := s.images wf cfg.input cfg.left cfg.right
  rw [hnone] at im i2
  obtain ⟨f1, f2, f3, f4, -⟩ := i2
  have sz : (∀ f ∈ [s.files.row, s.files.col, s.files.score], f.h = H ∧ f.w = W) := by
    intro f hf
    obtain ⟨z1, z2⟩ := iz f hf
    constructor
    · have a1 := z1 f.h
      have a2 := z1 H
      have a3 := z1 (H - 1)
      omega
    · have a1 := z2 f.w
      have a2 := z2 W
      have a3 := z2 (W - 1)
      omega
  refine ⟨k, fr, lr, fc, lc, gmin, gmax, k1, im, ⟨⟨f3, f4⟩, by omega, by omega⟩, ⟨f1, f2⟩, i4, fun a ha b hb => ?_, sz, fun a ha b hb => ?_⟩
  · have g1 := i5 a (by omega) b (by omega)
    have g2 := i6 a (by omega) b (by omega)
    rw [f1, f2, zero_add, zero_add] at g1 g2
    constructor <;> omega
  · obtain ⟨t1, t2⟩ := sz _ List.mem_cons_self
    obtain ⟨-, r0, c0, s0, cost, hc, hb', hp⟩ := i7 a (by omega) b (by omega)
    refine ⟨r0, c0, s0, cost, fun x y => ?_, ?_, ?_⟩
    · rw [hc, f1, f2, zero_add, zero_add, sub_zero, sub_zero, Int.toNat_natCast, Int.toNat_natCast, hzoom]
    · rw [zero_add, zero_add] at hb'
      exact hb'
    · rw [zero_add, zero_add] at hp
      exact hp

end

/-- C120: more iterations go on from where fewer ones stop. Two successful executions on the same full images, without estimation, with the same
subpixel factor, window cost, intervals, invalid value and kernel, with dichotomies of `it` and `it' ≥ it` iterations: at each pixel the three
values are the same, or the disparities are at most `1 / 2 ^ it - 1 / 2 ^ it'` apart and the score of the second is at least as good. -/
theorem C120_more_iterations (w : World K) (user user' p p' mc mc' inp inp' l r f f' : Fields) (out out' : List (Written K)) (H W : Nat)
    (dRow dCol dRow' dCol' : Disp) (invalid : F K) (n hw : Nat) (me : Measure) (ker : List (F K × F K) → F K) (it it' : Nat) (g : Kernel K)
    (wf : user.wf) (wf' : user'.wf)
    (hdisk : DiskContract w H W) (hpan : PandoraContract w) (hkeeps : PandoraKeeps w.pandora) (hzoom : w.run.zoom = zoomLinear)
    (cfg : Dichotomised w user p mc inp l r f H W dRow dCol invalid n hw me ker it g)
    (cfg' : Dichotomised w user' p' mc' inp' l r f' H W dRow' dCol' invalid n hw me ker it' g) (hle : it ≤ it') (hHW : 2 ≤ H ∧ 2 ≤ W)
    (ir : ∀ x < H, ∀ y < W, SameIntervalMoved dRow dRow' x y x y) (ic : ∀ x < H, ∀ y < W, SameIntervalMoved dCol dCol' x y x y)
    (h : Main.main w user = (out, none)) (h' : Main.main w user' = (out', none)) :
    ∃ files rest files' rest', out = .rasters files :: rest ∧ out' = .rasters files' :: rest' ∧
      (∀ f ∈ [files.row, files.col, files.score], f.h = H ∧ f.w = W) ∧ (∀ f ∈ [files'.row, files'.col, files'.score], f.h = H ∧ f.w = W) ∧
      ∀ a < H, ∀ b < W, FurtherPixel me (1 / 2 ^ it - 1 / 2 ^ it') (files.row.values a b) (files.col.values a b) (files.score.values a b)
        (files'.row.values a b) (files'.col.values a b) (files'.score.values a b) := by
  obtain ⟨s⟩ := dichotomised_stages cfg wf hpan h
  obtain ⟨s'⟩ := dichotomised_stages cfg' wf' hpan h'
  obtain ⟨k, fr, lr, fc, lc, gmin, gmax, hk, -, ⟨sl, -⟩, o, ⟨x1, x2⟩, hg, z, key⟩ := s.dichotomised cfg wf hdisk hkeeps hzoom hHW
  obtain ⟨k', fr', lr', fc', lc', gmin', gmax', hk', -, ⟨sl', -⟩, o', ⟨x1', x2'⟩, hg', z', key'⟩ := s'.dichotomised cfg' wf' hdisk hkeeps hzoom hHW
  obtain ⟨-, -, l1, l2⟩ := same_images s s' wf wf' cfg.noEstimation cfg'.noEstimation cfg.input cfg'.input ⟨_, cfg.left, cfg'.left⟩
    ⟨_, cfg.right, cfg'.right⟩ cfg.full cfg'.full
  obtain rfl : k' = k := Nat.pow_right_injective (le_refl 2) (hk'.symm.trans hk)
  obtain ⟨rfl, rfl⟩ := extent_same sl sl' o o' ir x1 x1'
  obtain ⟨rfl, rfl⟩ := extent_same sl sl' o o' ic x2 x2'
  refine ⟨s.files, _, s'.files, _, s.outIs, s'.outIs, z, z', fun a ha b hb => ?_⟩
  obtain ⟨r0, c0, s0, cost, e1, b1, p1⟩ := key a ha b hb
  obtain ⟨r1, c1, s1, cost', e2, b2, p2⟩ := key' a ha b hb
  obtain ⟨u1, u2⟩ := ir a ha b hb
  obtain ⟨u3, u4⟩ := ic a ha b hb
  have hcost : cost' = cost := by
    funext x y
    obtain ⟨g1, g2⟩ := hg a ha b hb
    obtain ⟨g3, g4⟩ := hg' a ha b hb
    rw [← u3] at g3
    rw [← u4] at g4
    rw [e1, e2, l1, l2]
    have hok : Pandora.windowOk hw s.left.img (slabImg zoomLinear s.right.img n x) gmin' gmax' a b y ↔
        Pandora.windowOk hw s.left.img (slabImg zoomLinear s.right.img n x) gmin gmax a b y := by
      unfold Pandora.windowOk
      rw [g1, g2, g3, g4]
    unfold Pandora.windowCost
    by_cases ok : Pandora.windowOk hw s.left.img (slabImg zoomLinear s.right.img n x) gmin gmax a b y
    · rw [if_pos ok, if_pos (hok.2 ok)]
    · rw [if_neg ok, if_neg fun q => ok (hok.1 q)]
  subst hcost
  have hseen : seen (K := K) dRow' dCol' fr' lr' fc' lc' a b cost' = seen dRow dCol fr' lr' fc' lc' a b cost' := by
    funext x y
    unfold seen ReadDisp
    rw [u1, u2, u3, u4]
  have hask : ∀ x y : K, AskedPair dRow' dCol' n a b x y ↔ AskedPair dRow dCol n a b x y := by
    intro x y
    unfold AskedPair
    rw [u1, u2, u3, u4]
  rw [← u1, ← u2, ← u3, ← u4, hseen] at p2
  obtain ⟨rfl, rfl, -⟩ := BestPair.unique (best_asked hask b2) b1
  refine searched_further ?_ hle p1 p2
  by_cases hex : ∃ x y, AskedPair dRow dCol n a b x y ∧ cost' x y ≠ .nan
  · obtain ⟨x0, y0, q1, q2, -⟩ := b1.smallest hex
    exact .inr ⟨x0, y0, q1, q2⟩
  · push Not at hex
    exact .inl (.inl (b1.invalid hex).1)

/-- C121: locality with a dichotomy. Two successful executions on full images of the same size, without estimation, with the same subpixel factor,
window cost, intervals, invalid value, iterations and kernel: at each pixel around which the images hold the same, in the left window and in the part
of the right image covered by the windows displaced by its intervals extended by the samples of the kernel, the three values are the same. -/
theorem C121_local_dichotomy (w w' : World K) (user user' p p' mc mc' inp inp' l r l' r' f f' : Fields) (out out' : List (Written K)) (H W : Nat)
    (dRow dCol dRow' dCol' : Disp) (invalid : F K) (n hw : Nat) (me : Measure) (ker : List (F K × F K) → F K) (it : Nat) (g : Kernel K)
    (wf : user.wf) (wf' : user'.wf)
    (hdisk : DiskContract w H W) (hpan : PandoraContract w) (hkeeps : PandoraKeeps w.pandora) (hzoom : w.run.zoom = zoomLinear)
    (hdisk' : DiskContract w' H W) (hpan' : PandoraContract w') (hkeeps' : PandoraKeeps w'.pandora) (hzoom' : w'.run.zoom = zoomLinear)
    (cfg : Dichotomised w user p mc inp l r f H W dRow dCol invalid n hw me ker it g)
    (cfg' : Dichotomised w' user' p' mc' inp' l' r' f' H W dRow' dCol' invalid n hw me ker it g) (hHW : 2 ≤ H ∧ 2 ≤ W)
    (ir : ∀ x < H, ∀ y < W, SameIntervalMoved dRow dRow' x y x y) (ic : ∀ x < H, ∀ y < W, SameIntervalMoved dCol dCol' x y x y)
    (h : Main.main w user = (out, none)) (h' : Main.main w' user' = (out', none)) :
    ∃ files rest files' rest' left right left' right', out = .rasters files :: rest ∧ out' = .rasters files' :: rest' ∧
      ImagesRead w l r none left right ∧ ImagesRead w' l' r' none left' right' ∧
      (∀ f ∈ [files.row, files.col, files.score], f.h = H ∧ f.w = W) ∧ (∀ f ∈ [files'.row, files'.col, files'.score], f.h = H ∧ f.w = W) ∧
      ∀ a < H, ∀ b < W, SameAround hw left right left' right' a b
          (initAt dRow a b - dRow.range - g.before) (initAt dRow a b + dRow.range + (g.size - 1 - g.before : Nat))
          (initAt dCol a b - dCol.range - g.before) (initAt dCol a b + dCol.range + (g.size - 1 - g.before : Nat)) →
        files'.row.values a b = files.row.values a b ∧ files'.col.values a b = files.col.values a b ∧
          files'.score.values a b = files.score.values a b := by
  obtain ⟨s⟩ := dichotomised_stages cfg wf hpan h
  obtain ⟨s'⟩ := dichotomised_stages cfg' wf' hpan' h'
  obtain ⟨k, fr, lr, fc, lc, gmin, gmax, hk, im, ⟨sl, sr⟩, o, ⟨x1, x2⟩, hg, z, key⟩ := s.dichotomised cfg wf hdisk hkeeps hzoom hHW
  obtain ⟨k', fr', lr', fc', lc', gmin', gmax', hk', im', ⟨sl', sr'⟩, o', ⟨x1', x2'⟩, hg', z', key'⟩ :=
    s'.dichotomised cfg' wf' hdisk' hkeeps' hzoom' hHW
  obtain rfl : k' = k := Nat.pow_right_injective (le_refl 2) (hk'.symm.trans hk)
  obtain ⟨rfl, rfl⟩ := extent_same sl sl' o o' ir x1 x1'
  obtain ⟨rfl, rfl⟩ := extent_same sl sl' o o' ic x2 x2'
  have hn : 0 < n := by rw [hk]; positivity
  refine ⟨s.files, _, s'.files, _, s.left.img, s.right.img, s'.left.img, s'.right.img, s.outIs, s'.outIs, im, im', z, z',
    fun a ha b hb near => ?_⟩
  obtain ⟨r0, c0, s0, cost, e1, b1, p1⟩ := key a ha b hb
  obtain ⟨r1, c1, s1, cost', e2, b2, p2⟩ := key' a ha b hb
  obtain ⟨g1, g2⟩ := hg a ha b hb
  obtain ⟨g1', g2'⟩ := hg' a ha b hb
  obtain ⟨c1, c2⟩ := ic a ha b hb
  have one : ∀ v : F K, F.mul (.fin 1) v = v := by
    intro v
    cases v <;> simp [F.mul]
  have res := searched_scaled (α := (1 : K)) one_pos hk (ir a ha b hb) (ic a ha b hb) ?_ b1 p1 b2 p2
  · rw [one] at res
    exact res
  rintro x y ⟨⟨kx, -, hkx, -⟩, ⟨q1, q2⟩, q3, q4⟩
  rw [one, e1, e2]
  have D := slab_displaced s.right.img n hn x ⟨kx, hkx⟩
  have D' := slab_displaced s'.right.img n hn x ⟨kx, hkx⟩
  have values : ∀ x1 y1 : Nat, x1 < s.right.img.h → a ≤ x1 + hw → x1 ≤ a + hw → y1 < s.right.img.w → ⌊(b : K) + y⌋ ≤ (y1 : Int) + hw →
      (y1 : Int) ≤ ⌈(b : K) + y⌉ + hw →
      (slabImg zoomLinear s'.right.img n x).im x1 y1 = (slabImg zoomLinear s.right.img n x).im x1 y1 := by
    intro x1 y1 k0 k1 k2 k3 k4 k5
    refine displaced_local D D' ⟨by omega, by omega⟩ near.noData k0 k3 fun q hq u1 u2 => near.searched q y1 hq k3 ?_ ?_ ?_ ?_
    · have : (x1 : Int) + (initAt dRow a b - dRow.range - g.before) ≤ ⌊(x1 : K) + x⌋ := by
        rw [Int.le_floor]; push_cast; push_cast at q1; linarith
      omega
    · have : ⌈(x1 : K) + x⌉ ≤ (x1 : Int) + (initAt dRow a b + dRow.range + (g.size - 1 - g.before : Nat)) := by
        rw [Int.ceil_le, Int.cast_add, Int.cast_natCast]; linarith
      omega
    · have : (b : Int) + (initAt dCol a b - dCol.range - g.before) ≤ ⌊(b : K) + y⌋ := by
        rw [Int.le_floor]; push_cast; push_cast at q3; linarith
      omega
    · have : ⌈(b : K) + y⌉ ≤ (b : Int) + (initAt dCol a b + dCol.range + (g.size - 1 - g.before : Nat)) := by
        rw [Int.ceil_le, Int.cast_add, Int.cast_natCast]; linarith
      omega
  refine window_local ⟨⟨by omega, by omega⟩, by rw [D'.size.2, D.size.2]; omega⟩ ⟨?_, ?_⟩ ⟨?_, ?_⟩ near.window near.centre ?_ D.valid D'.valid
  · rw [g1]; exact q3
  · rw [g2]; exact q4
  · rw [g1', ← c1]; exact q3
  · rw [g2', ← c2]; exact q4
  · intro hin x1 y1 k1 k2 k3 k4 k5
    rw [D.size.2] at k3
    have v := values x1 y1 (by omega) k1 k2 k3 k4 k5
    exact ⟨v, by rw [D.flags, D'.flags, v, near.noData]⟩

/-- C122: brightness and contrast with a dichotomy. Two successful executions on full images, without estimation, with the same subpixel factor,
window cost, intervals, invalid value, iterations and kernel: the values of the left image of the second are those of the first seen through `gl`,
those of its right image, and its no-data value, are multiplied by `kr > 0` and shifted by `cr`, with the same flags, and the measure of windows so
seen is the measure multiplied by `α > 0`. At each pixel the disparities are the same, even refined, and the score of the second is the one of
the first multiplied by `α`. -/
theorem C122_brightness_dichotomy (w w' : World K) (user user' p p' mc mc' inp inp' l r l' r' f f' : Fields) (out out' : List (Written K)) (H W : Nat)
    (dRow dCol dRow' dCol' : Disp) (invalid : F K) (n hw : Nat) (me : Measure) (ker : List (F K × F K) → F K) (it : Nat) (g : Kernel K)
    (gl : F K → F K) (kr cr α : K) (wf : user.wf) (wf' : user'.wf)
    (hdisk : DiskContract w H W) (hpan : PandoraContract w) (hkeeps : PandoraKeeps w.pandora) (hzoom : w.run.zoom = zoomLinear)
    (hdisk' : DiskContract w' H W) (hpan' : PandoraContract w') (hkeeps' : PandoraKeeps w'.pandora) (hzoom' : w'.run.zoom = zoomLinear)
    (cfg : Dichotomised w user p mc inp l r f H W dRow dCol invalid n hw me ker it g)
    (cfg' : Dichotomised w' user' p' mc' inp' l' r' f' H W dRow' dCol' invalid n hw me ker it g) (hHW : 2 ≤ H ∧ 2 ≤ W)
    (hkr : 0 < kr) (hα : 0 < α) (hm : ∀ l, ker (l.map (Prod.map gl (affine kr cr))) = F.mul (.fin α) (ker l))
    (himg : ∀ left right left' right', ImagesRead w l r none left right → ImagesRead w' l' r' none left' right' →
      Regraded gl left left' ∧ Regraded (affine kr cr) right right')
    (ir : ∀ x < H, ∀ y < W, SameIntervalMoved dRow dRow' x y x y) (ic : ∀ x < H, ∀ y < W, SameIntervalMoved dCol dCol' x y x y)
    (h : Main.main w user = (out, none)) (h' : Main.main w' user' = (out', none)) :
    ∃ files rest files' rest', out = .rasters files :: rest ∧ out' = .rasters files' :: rest' ∧
      (∀ f ∈ [files.row, files.col, files.score], f.h = H ∧ f.w = W) ∧ (∀ f ∈ [files'.row, files'.col, files'.score], f.h = H ∧ f.w = W) ∧
      ∀ a < H, ∀ b < W, files'.row.values a b = files.row.values a b ∧ files'.col.values a b = files.col.values a b ∧
        files'.score.values a b = F.mul (.fin α) (files.score.values a b) := by
  obtain ⟨s⟩ := dichotomised_stages cfg wf hpan h
  obtain ⟨s'⟩ := dichotomised_stages cfg' wf' hpan' h'
  obtain ⟨k, fr, lr, fc, lc, gmin, gmax, hk, im, ⟨sl, sr⟩, o, ⟨x1, x2⟩, hg, z, key⟩ := s.dichotomised cfg wf hdisk hkeeps hzoom hHW
  obtain ⟨k', fr', lr', fc', lc', gmin', gmax', hk', im', ⟨sl', sr'⟩, o', ⟨x1', x2'⟩, hg', z', key'⟩ :=
    s'.dichotomised cfg' wf' hdisk' hkeeps' hzoom' hHW
  obtain ⟨gl', gr'⟩ := himg _ _ _ _ im im'
  obtain rfl : k' = k := Nat.pow_right_injective (le_refl 2) (hk'.symm.trans hk)
  obtain ⟨rfl, rfl⟩ := extent_same sl sl' o o' ir x1 x1'
  obtain ⟨rfl, rfl⟩ := extent_same sl sl' o o' ic x2 x2'
  have hn : 0 < n := by rw [hk]; positivity
  refine ⟨s.files, _, s'.files, _, s.outIs, s'.outIs, z, z', fun a ha b hb => ?_⟩
  obtain ⟨r0, c0, s0, cost, e1, b1, p1⟩ := key a ha b hb
  obtain ⟨r1, c1, s1, cost', e2, b2, p2⟩ := key' a ha b hb
  obtain ⟨g1, g2⟩ := hg a ha b hb
  obtain ⟨g1', g2'⟩ := hg' a ha b hb
  obtain ⟨c1, c2⟩ := ic a ha b hb
  refine searched_scaled hα hk (ir a ha b hb) (ic a ha b hb) ?_ b1 p1 b2 p2
  rintro x y ⟨⟨kx, -, hkx, -⟩, -, q3, q4⟩
  rw [e1, e2]
  refine window_seen (φ := F.mul (.fin α)) hkr ⟨⟨by omega, by omega⟩, by omega, by omega⟩ (by omega) ⟨?_, ?_⟩ ⟨?_, ?_⟩ gl' gr'
    (slab_displaced s.right.img n hn x ⟨kx, hkx⟩) (slab_displaced s'.right.img n hn x ⟨kx, hkx⟩) ⟨hm, scaled_nan hα, scaled_le hα⟩
  · rw [g1]; exact q3
  · rw [g2]; exact q4
  · rw [g1', ← c1]; exact q3
  · rw [g2', ← c2]; exact q4

/-! ## Examples -/

/-- A dichotomy of `i` iterations with the bicubic filter. -/
def exDichoOf (i : Int) : J :=
  .obj (dict [("refinement_method", .str "dichotomy"), ("iterations", .int i), ("filter", .obj (dict [("method", .str "bicubic")]))])

abbrev exUserIt (i : Int) : Fields := exUserWhole 1 1 (some (exDichoOf i)) (some (.int 0))

theorem exUserIt_wf (i : Int) : (exUserIt i).wf := by
  simp [exUserIt, exUserWhole, exInput, exPipeline, exDichoOf, dict, Fields.append, Fields.wf, J.wf, Fields.keys]

theorem exUserIt_runs (fl fr : Nat → Nat → F ℚ) (i : Int) (hi : i = 1 ∨ i = 2) :
    Main.main (exWorldT fl fr) (exUserIt i) = ((Main.main (exWorldT fl fr) (exUserIt i)).1, none) := by
  have : (Main.main (exWorldT fl fr) (exUserIt i)).2 = none := by
    obtain ⟨m, cfg, h⟩ := accepted_ok (w := exWorldP) (user := exUserIt i) (by rcases hi with rfl | rfl <;> decide +kernel)
    refine C81_accepted_runs_partial (exWorldT fl fr) _ _ _ cfg m 3 3 0 2 0 2 1 1 (exUserIt_wf i) (exWorldT_contract fl fr) rfl (by rcases hi with rfl | rfl <;> decide) rfl
      (.inl ⟨_, _, rfl, .inl rfl, .inl rfl⟩) (.inr ⟨rfl, rfl, rfl, rfl, rfl⟩) (by decide) ?_ ?_ (.inl ⟨rfl, rfl⟩) h
    · intro he
      exact absurd rfl he
    · intro v hv
      have : v = exDichoOf i := (Option.some.inj hv).symm
      subst this
      exact ⟨_, rfl, .inr (.inl ⟨rfl, rfl, rfl⟩)⟩
  exact Prod.ext rfl this

theorem exUserIt_cfg (fl fr : Nat → Nat → F ℚ) (i : Nat) (hi : i ≤ 9) :
    ∃ p mc inp f, Dichotomised (exWorldT fl fr) (exUserIt i) p mc inp exL exR f 3 3 ⟨.const 0, 1⟩ ⟨.const 0, 1⟩ .nan 1 0 .min sad i keysKernel :=
  ⟨_, _, _, _, rfl, rfl, rfl, rfl, rfl, rfl, rfl, rfl, ⟨_, i, rfl, .inl rfl, by omega⟩, ⟨_, rfl, .inl ⟨rfl, rfl⟩⟩, rfl,
    ⟨_, _, _, _, _, .int 1, rfl, rfl, rfl, .inl rfl, rfl, rfl⟩, 1, 1,
    ⟨_, rfl, ⟨_, _, _, rfl, rfl, rfl, .inl rfl, .inl ⟨_, .inl rfl, rfl⟩⟩, ⟨_, _, _, rfl, rfl, rfl, .inl rfl, .inl ⟨_, .inl rfl, rfl⟩⟩⟩,
    .inr ⟨rfl, rfl, rfl, rfl, rfl⟩,
    ⟨_, _, _, rfl, rfl, rfl, .inl ⟨_, _, rfl, .inl rfl, .inl rfl⟩, .inl ⟨_, rfl, .inr (.inr (.inl ⟨rfl, rfl⟩))⟩⟩⟩

/-- One iteration and two iterations on the same images. -/
example (fl fr : Nat → Nat → F ℚ) : ∃ files rest files' rest',
    Main.main (exWorldT fl fr) (exUserIt 1) = (.rasters files :: rest, none) ∧ Main.main (exWorldT fl fr) (exUserIt 2) = (.rasters files' :: rest', none) ∧
    ∀ a < 3, ∀ b < 3, FurtherPixel .min (1 / 2 ^ 1 - 1 / 2 ^ 2) (files.row.values a b) (files.col.values a b) (files.score.values a b)
      (files'.row.values a b) (files'.col.values a b) (files'.score.values a b) := by
  obtain ⟨_, _, _, _, cfg⟩ := exUserIt_cfg fl fr 1 (by decide)
  obtain ⟨_, _, _, _, cfg'⟩ := exUserIt_cfg fl fr 2 (by decide)
  have ct := exWorldT_contract fl fr
  have h1 := exUserIt_runs fl fr 1 (.inl rfl)
  have h2 := exUserIt_runs fl fr 2 (.inr rfl)
  obtain ⟨files, rest, files', rest', o, o', -, -, key⟩ := C120_more_iterations _ _ _ _ _ _ _ _ _ _ _ _ _ _ _ _ _ _ _ _ _ _ _ _ _ _ _ _ _
    (exUserIt_wf 1) (exUserIt_wf 2) ct.disk ct.pandora ct.keeps rfl cfg cfg' (by decide) (by decide) (fun _ _ _ _ => ⟨rfl, rfl⟩)
    (fun _ _ _ _ => ⟨rfl, rfl⟩) h1 h2
  exact ⟨files, rest, files', rest', by rw [h1]; exact congrArg (·, none) o, by rw [h2]; exact congrArg (·, none) o', key⟩

/-- The hypotheses of `C121_local_dichotomy` hold for two pairs of images. -/
example (fl fr fl' fr' : Nat → Nat → F ℚ) : ∃ files rest files' rest' left right left' right',
    Main.main (exWorldT fl fr) (exUserIt 1) = (.rasters files :: rest, none) ∧ Main.main (exWorldT fl' fr') (exUserIt 1) = (.rasters files' :: rest', none) ∧
    ImagesRead (exWorldT fl fr) exL exR none left right ∧ ImagesRead (exWorldT fl' fr') exL exR none left' right' ∧
    ∀ a < 3, ∀ b < 3, SameAround 0 left right left' right' a b (-2) 3 (-2) 3 → files'.row.values a b = files.row.values a b ∧
      files'.col.values a b = files.col.values a b ∧ files'.score.values a b = files.score.values a b := by
  obtain ⟨_, _, _, _, cfg⟩ := exUserIt_cfg fl fr 1 (by decide)
  obtain ⟨_, _, _, _, cfg'⟩ := exUserIt_cfg fl' fr' 1 (by decide)
  have ct := exWorldT_contract fl fr
  have ct' := exWorldT_contract fl' fr'
  have h1 := exUserIt_runs fl fr 1 (.inl rfl)
  have h2 := exUserIt_runs fl' fr' 1 (.inl rfl)
  obtain ⟨files, rest, files', rest', left, right, left', right', o, o', im, im', -, -, key⟩ := C121_local_dichotomy _ _ _ _ _ _ _ _ _ _ _ _ _ _ _ _
    _ _ _ _ _ _ _ _ _ _ _ _ _ _ _ (exUserIt_wf 1) (exUserIt_wf 1) ct.disk ct.pandora ct.keeps rfl ct'.disk ct'.pandora ct'.keeps rfl cfg cfg'
    (by decide) (fun _ _ _ _ => ⟨rfl, rfl⟩) (fun _ _ _ _ => ⟨rfl, rfl⟩) h1 h2
  exact ⟨files, rest, files', rest', left, right, left', right', by rw [h1]; exact congrArg (·, none) o, by rw [h2]; exact congrArg (·, none) o',
    im, im', key⟩

/-- Two images and the images of another contrast and brightness. -/
example (fl fr : Nat → Nat → F ℚ) : ∃ files rest files' rest',
    Main.main (exWorldT fl fr) (exUserIt 1) = (.rasters files :: rest, none) ∧
    Main.main (exWorldT (fun x y => affine 2 1 (fl x y)) (fun x y => affine 2 1 (fr x y))) (exUserIt 1) = (.rasters files' :: rest', none) ∧
    ∀ a < 3, ∀ b < 3, files'.row.values a b = files.row.values a b ∧ files'.col.values a b = files.col.values a b ∧
      files'.score.values a b = F.mul (.fin 2) (files.score.values a b) := by
  obtain ⟨_, _, _, _, cfg⟩ := exUserIt_cfg fl fr 1 (by decide)
  obtain ⟨_, _, _, _, cfg'⟩ := exUserIt_cfg (fun x y => affine 2 1 (fl x y)) (fun x y => affine 2 1 (fr x y)) 1 (by decide)
  have ct := exWorldT_contract fl fr
  have ct' := exWorldT_contract (fun x y => affine 2 1 (fl x y)) (fun x y => affine 2 1 (fr x y))
  have h1 := exUserIt_runs fl fr 1 (.inl rfl)
  have h2 := exUserIt_runs (fun x y => affine 2 1 (fl x y)) (fun x y => affine 2 1 (fr x y)) 1 (.inl rfl)
  have inj : ∀ v : F ℚ, affine 2 1 v = affine 2 1 (.fin (-1)) → v = .fin (-1) := by
    intro v h
    cases v <;> simp [affine, F.mul, F.add] at h ⊢
    linarith
  have reg : ∀ f : Nat → Nat → F ℚ, Regraded (affine 2 1) (exImgT f) (exImgT fun x y => affine 2 1 (f x y)) := fun f =>
    ⟨by simp [exImgT, exLeftImg, affine, F.mul, F.add]; norm_num, fun _ _ _ _ => rfl, fun x _ y _ h => inj _ h, fun _ _ _ _ => rfl,
      fun _ _ _ _ => rfl⟩
  obtain ⟨files, rest, files', rest', o, o', -, -, key⟩ := C122_brightness_dichotomy _ _ _ _ _ _ _ _ _ _ _ _ _ _ _ _
    _ _ _ _ _ _ _ _ _ _ _ _ _ _ _ (affine 2 1) 2 1 2 (exUserIt_wf 1) (exUserIt_wf 1) ct.disk ct.pandora ct.keeps rfl ct'.disk ct'.pandora ct'.keeps rfl
    cfg cfg' (by decide) (by norm_num) (by norm_num) (sad_affine 1 (by norm_num)).measure (fun left right left' right' h h' => by
      obtain ⟨rfl, rfl⟩ := exWorldT_images _ _ _ _ h
      obtain ⟨rfl, rfl⟩ := exWorldT_images _ _ _ _ h'
      exact ⟨reg fl, reg fr⟩) (fun _ _ _ _ => ⟨rfl, rfl⟩) (fun _ _ _ _ => ⟨rfl, rfl⟩) h1 h2
  exact ⟨files, rest, files', rest', by rw [h1]; exact congrArg (·, none) o, by rw [h2]; exact congrArg (·, none) o', key⟩

end Verif.Props
