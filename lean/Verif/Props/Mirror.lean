import Verif.Props.Radiometry

/-!
# C115: mirrored images, with fractions of pixels
-/

namespace Verif.Props

open Verif Verif.Config Verif.Machine Verif.ImgTools Verif.MatchingCost Verif.Disparity Verif.Run Verif.Main Verif.Spec Verif.Save
  Verif.Statistics

set_option linter.unusedSectionVars false
set_option linter.unnecessarySeqFocus false

variable {K : Type} [Field K] [LinearOrder K] [IsStrictOrderedRing K] [FloorRing K]

theorem add_swap (a b : F K) : F.add a b = F.add b a := by
  cases a <;> cases b <;> simp [F.add, add_comm]

theorem opposed_twice (t : Bool) (d : K) : opposed t (opposed t d) = d := by
  cases t <;> simp [opposed]

/-- The position of the last index seen from the other end. -/
theorem turned_cast {n x : Nat} (h : x < n) : ((turned true n x : Nat) : K) = ((n - 1 : Nat) : K) - (x : K) := by
  simp only [turned, if_true]
  rw [Nat.cast_sub (by omega)]

/-- The rows of an image displaced by `d`, and those of the mirrored image displaced by `d` or `-d`. -/
theorem displaced_mirrored {tr tc : Bool} {D D' right right' : Img K} {d : K} (h : Displaced D right d) (h' : Displaced D' right' (opposed tr d))
    (hs : right'.h = right.h ∧ right'.w = right.w) (hr : Mirrored tr tc right right') : Mirrored tr tc D D' := by
  obtain ⟨s1, s2⟩ := hs
  have key : ∀ x < right.h, ∀ y < right.w, D'.im (turned tr right.h x) (turned tc right.w y) = D.im x y := by
    intro x hx y hy
    obtain ⟨k1, k2⟩ := h.samples x hx y hy
    obtain ⟨k1', k2'⟩ := h'.samples (turned tr right.h x) (by rw [s1]; exact (turned_turned hx).2) (turned tc right.w y)
      (by rw [s2]; exact (turned_turned hy).2)
    rw [s1] at k1' k2'
    set N : K := ((right.h - 1 : Nat) : K) with hN
    have pos : ((turned tr right.h x : Nat) : K) + opposed tr d = if tr then N - ((x : K) + d) else (x : K) + d := by
      cases tr
      · simp [turned, opposed]
      · rw [turned_cast hx]; simp only [opposed, if_true]; ring
    by_cases hout : (x : K) + d < 0 ∨ N < (x : K) + d
    · rw [k2 hout, k2' ?_, hr.noData]
      rw [pos]
      cases tr
      · exact hout
      · simp only [if_true]
        rcases hout with q | q
        · right; linarith
        · left; linarith
    · push Not at hout
      obtain ⟨h0, h1⟩ := hout
      have hf : 0 ≤ ⌊(x : K) + d⌋ := Int.floor_nonneg.2 h0
      obtain ⟨q, hq⟩ := Int.eq_ofNat_of_zero_le hf
      have hpos : (x : K) + d = (q : K) + Int.fract ((x : K) + d) := by
        conv_lhs => rw [← Int.floor_add_fract ((x : K) + d), hq]
        simp
      have f0 := Int.fract_nonneg ((x : K) + d)
      have f1 := Int.fract_lt_one ((x : K) + d)
      set f := Int.fract ((x : K) + d) with hfr
      rw [k1 q f f0 f1 hpos h1]
      have hqh : q ≤ right.h - 1 := by
        have : (q : K) ≤ N := by rw [hpos] at h1; linarith
        rw [hN] at this
        exact_mod_cast this
      have v0 := hr.values q (by omega) y hy
      cases tr
      · simp only [if_false, Bool.false_eq_true] at pos
        rw [k1' q f f0 f1 (pos.trans hpos) (by rw [pos]; exact h1)]
        replace v0 : right'.im q (turned tc right.w y) = right.im q y := v0
        unfold lerpRow
        split_ifs with hz
        · exact v0
        · have hq1 : q + 1 ≤ right.h - 1 := by
            have hz' : 0 < f := lt_of_le_of_ne f0 (Ne.symm hz)
            have : (q : K) < N := by rw [hpos] at h1; linarith
            rw [hN] at this
            have : q < right.h - 1 := by exact_mod_cast this
            omega
          have v1 : right'.im (q + 1) (turned tc right.w y) = right.im (q + 1) y := hr.values (q + 1) (by omega) y hy
          rw [v0, v1]
      · simp only [if_true] at pos
        replace v0 : right'.im (right.h - 1 - q) (turned tc right.w y) = right.im q y := v0
        unfold lerpRow
        split_ifs with hz
        · have e := k1' (right.h - 1 - q) 0 le_rfl one_pos (by rw [pos, hpos, hz, Nat.cast_sub hqh]; simp [hN]) (by rw [pos]; linarith)
          rw [e]
          unfold lerpRow
          rw [if_pos rfl]
          exact v0
        · have hz' : 0 < f := lt_of_le_of_ne f0 (Ne.symm hz)
          have hq1 : q + 1 ≤ right.h - 1 := by
            have : (q : K) < N := by rw [hpos] at h1; linarith
            rw [hN] at this
            have : q < right.h - 1 := by exact_mod_cast this
            omega
          have v1 : right'.im (right.h - 1 - (q + 1)) (turned tc right.w y) = right.im (q + 1) y := hr.values (q + 1) (by omega) y hy
          have e := k1' (right.h - 1 - (q + 1)) (1 - f) (by linarith) (by linarith)
            (by rw [pos, hpos, Nat.cast_sub hq1]; push_cast; simp only [hN]; ring) (by rw [pos]; linarith)
          rw [e]
          unfold lerpRow
          rw [if_neg (by linarith), show right.h - 1 - (q + 1) + 1 = right.h - 1 - q by omega]
          rw [v0, v1, add_swap, sub_sub_cancel]
  refine ⟨by rw [h.noData, h'.noData, hr.noData], ?_, ?_, fun x _ y _ => by rw [h.valid, h'.valid]⟩
  · rw [h.size.1, h.size.2]; exact key
  · rw [h.size.1, h.size.2]
    intro x hx y hy
    rw [h.flags, h'.flags, key x hx y hy, hr.noData]

/-- The column `p` seen from the other end. -/
theorem sample_mirrored {tr tc : Bool} {D D' : Img K} (hD : Mirrored tr tc D D') {x : Nat} (hx : x < D.h) {p p' : K}
    (hp : p' = if tc then ((D.w - 1 : Nat) : K) - p else p) (h0 : 0 ≤ ⌊p⌋) (h1 : ⌈p⌉ < D.w) :
    Pandora.sampleCol D' (turned tr D.h x) p' = Pandora.sampleCol D x p := by
  obtain ⟨q, hq⟩ := Int.eq_ofNat_of_zero_le h0
  have hfc := Int.floor_le_ceil p
  have f0 := Int.fract_nonneg p
  have f1 := Int.fract_lt_one p
  have hpos : p = (q : K) + Int.fract p := by
    conv_lhs => rw [← Int.floor_add_fract p, hq]
    simp
  have v0 := hD.values x hx q (by omega)
  have v1 : ¬ Int.fract p = 0 → q + 1 < D.w ∧ D'.im (turned tr D.h x) (turned tc D.w (q + 1)) = D.im x (q + 1) := by
    intro hz
    have hz' : 0 < Int.fract p := lt_of_le_of_ne f0 (Ne.symm hz)
    have hcl : ⌈p⌉ = ⌊p⌋ + 1 := by
      rw [Int.ceil_eq_iff]
      have hsum := Int.floor_add_fract p
      push_cast
      constructor <;> linarith
    exact ⟨by omega, hD.values x hx (q + 1) (by omega)⟩
  cases tc
  · simp only [if_false, Bool.false_eq_true] at hp
    subst hp
    replace v0 : D'.im (turned tr D.h x) q = D.im x q := v0
    replace v1 : ¬ Int.fract p' = 0 → q + 1 < D.w ∧ D'.im (turned tr D.h x) (q + 1) = D.im x (q + 1) := v1
    unfold Pandora.sampleCol
    rw [hq, Int.toNat_natCast]
    split_ifs with hz
    · exact v0
    · rw [v0, (v1 hz).2]
  · simp only [if_true] at hp
    replace v0 : D'.im (turned tr D.h x) (D.w - 1 - q) = D.im x q := v0
    replace v1 : ¬ Int.fract p = 0 → q + 1 < D.w ∧ D'.im (turned tr D.h x) (D.w - 1 - (q + 1)) = D.im x (q + 1) := v1
    unfold Pandora.sampleCol
    by_cases hz : Int.fract p = 0
    · have hp' : p' = (((D.w - 1 - q : Nat) : Int) : K) := by
        rw [hp, hpos, hz, Int.cast_natCast, Nat.cast_sub (show q ≤ D.w - 1 by omega), add_zero]
      rw [if_pos hz, if_pos (by rw [hp', Int.fract_intCast]), hp', Int.floor_intCast, Int.toNat_natCast, hq]
      exact v0
    · obtain ⟨b1, v1⟩ := v1 hz
      have hz' : 0 < Int.fract p := lt_of_le_of_ne f0 (Ne.symm hz)
      have hp' : p' = (((D.w - 1 - (q + 1) : Nat) : Int) : K) + (1 - Int.fract p) := by
        rw [Int.cast_natCast, Nat.cast_sub (by omega), hp]
        conv_lhs => rw [hpos]
        push_cast; ring
      have hfl : ⌊p'⌋ = ((D.w - 1 - (q + 1) : Nat) : Int) := by
        rw [Int.floor_eq_iff, hp']
        constructor <;> linarith
      have hfr : Int.fract p' = 1 - Int.fract p := by
        unfold Int.fract at *
        rw [hfl]; linarith
      rw [if_neg hz, hfr, if_neg (by linarith), hfl, Int.toNat_natCast, show D.w - 1 - (q + 1) + 1 = D.w - 1 - q by omega, hq]
      rw [v0, v1, add_swap, sub_sub_cancel]
      rfl

theorem turned_floor (tc : Bool) {W b : Nat} (hb : b < W) (d : K) :
    ⌊((turned tc W b : Nat) : K) + opposed tc d⌋ = (if tc then ((W - 1 : Nat) : Int) - ⌈(b : K) + d⌉ else ⌊(b : K) + d⌋) ∧
    ⌈((turned tc W b : Nat) : K) + opposed tc d⌉ = (if tc then ((W - 1 : Nat) : Int) - ⌊(b : K) + d⌋ else ⌈(b : K) + d⌉) := by
  cases tc
  · simp [turned, opposed]
  · have e : ((turned true W b : Nat) : K) + opposed true d = -((b : K) + d) + (((W - 1 : Nat) : Int) : K) := by
      rw [turned_cast hb]; simp only [opposed, if_true]; push_cast; ring
    rw [e, Int.floor_add_intCast, Int.ceil_add_intCast, Int.floor_neg, Int.ceil_neg]
    simp only [if_true]
    constructor <;> ring

section
variable {tr tc : Bool} {H W hw : Nat} {left D left' D' : Img K} {gmin gmax gmin' gmax' : Arr2 Int} {a b : Nat} {d : K}

theorem window_ok_mirrored (hl : Mirrored tr tc left left') (hD : Mirrored tr tc D D')
    (s : (left.h = H ∧ left.w = W) ∧ D.h = H ∧ D.w = W) (s' : (left'.h = H ∧ left'.w = W) ∧ D'.h = H ∧ D'.w = W)
    (hv' : ∀ x y, Pandora.invalidAt D' x y = false)
    (g' : (gmin'.get (turned tr H a) (turned tc W b) : K) ≤ opposed tc d ∧ opposed tc d ≤ (gmax'.get (turned tr H a) (turned tc W b) : K))
    (h : Pandora.windowOk hw left D gmin gmax a b d) :
    Pandora.windowOk hw left' D' gmin' gmax' (turned tr H a) (turned tc W b) (opposed tc d) := by
  obtain ⟨⟨b1, b2, b3, b4⟩, ⟨b5, b6⟩, -, c1, c2, c3, -⟩ := h
  obtain ⟨⟨s1, s2⟩, s3, s4⟩ := s
  obtain ⟨⟨s5, s6⟩, s7, s8⟩ := s'
  rw [s1] at b2
  rw [s2] at b4
  rw [s4] at b6
  obtain ⟨e1, e2⟩ := turned_floor (K := K) tc (show b < W by omega) d
  have hfc := Int.floor_le_ceil ((b : K) + d)
  refine ⟨?_, ?_, g', ?_, ?_, ?_, hv' _ _, hv' _ _⟩
  · rw [s5, s6]
    cases tr <;> cases tc <;> simp only [turned, Bool.false_eq_true, if_true, if_false] <;>
      exact ⟨by omega, by omega, by omega, by omega⟩
  · rw [s8, e1, e2]
    cases tc <;> simp only [Bool.false_eq_true, if_true, if_false] <;> exact ⟨by omega, by omega⟩
  · intro x hx y hy
    have key := hl.flags (a + turned tr (2 * hw + 1) x - hw) (by rw [s1]; have := (turned_turned (t := tr) hx).2; omega)
      (b + turned tc (2 * hw + 1) y - hw) (by rw [s2]; have := (turned_turned (t := tc) hy).2; omega)
    rw [c1 _ (turned_turned hx).2 _ (turned_turned hy).2, s1, s2] at key
    have e3 : turned tr H (a + turned tr (2 * hw + 1) x - hw) = turned tr H a + x - hw := by
      cases tr <;> simp only [turned, Bool.false_eq_true, if_true, if_false] <;> omega
    have e4 : turned tc W (b + turned tc (2 * hw + 1) y - hw) = turned tc W b + y - hw := by
      cases tc <;> simp only [turned, Bool.false_eq_true, if_true, if_false] <;> omega
    rwa [e3, e4] at key
  · intro x hx y y1 y2
    rw [e1] at y1
    rw [e2] at y2
    have hy : y < W := by cases tc <;> simp only [Bool.false_eq_true, if_true, if_false] at y1 y2 <;> omega
    have key := hD.flags (a + turned tr (2 * hw + 1) x - hw) (by rw [s3]; have := (turned_turned (t := tr) hx).2; omega)
      (turned tc W y) (by rw [s4]; exact (turned_turned hy).2)
    rw [c2 _ (turned_turned hx).2 _ ?_ ?_, s3, s4, (turned_turned hy).1] at key
    · have e3 : turned tr H (a + turned tr (2 * hw + 1) x - hw) = turned tr H a + x - hw := by
        cases tr <;> simp only [turned, Bool.false_eq_true, if_true, if_false] <;> omega
      rwa [e3] at key
    · cases tc <;> simp only [turned, Bool.false_eq_true, if_true, if_false] at y1 y2 ⊢ <;> omega
    · cases tc <;> simp only [turned, Bool.false_eq_true, if_true, if_false] at y1 y2 ⊢ <;> omega
  · have := hl.valid a (by omega) b (by omega)
    rw [s1, s2] at this
    rw [this]; exact c3

theorem window_pairs_mirrored (hl : Mirrored tr tc left left') (hD : Mirrored tr tc D D')
    (s : (left.h = H ∧ left.w = W) ∧ D.h = H ∧ D.w = W) (h : Pandora.windowOk hw left D gmin gmax a b d) :
    (Pandora.windowPairs hw left' D' (turned tr H a) (turned tc W b) (((turned tc W b : Nat) : K) + opposed tc d)).Perm
      (Pandora.windowPairs hw left D a b ((b : K) + d)) := by
  obtain ⟨⟨b1, b2, b3, b4⟩, ⟨b5, b6⟩, -⟩ := h
  obtain ⟨⟨s1, s2⟩, s3, s4⟩ := s
  rw [s1] at b2
  rw [s2] at b4
  rw [s4] at b6
  have e : Pandora.windowPairs hw left' D' (turned tr H a) (turned tc W b) (((turned tc W b : Nat) : K) + opposed tc d) =
      ((List.range (2 * hw + 1)).map (turned tr (2 * hw + 1))).flatMap fun x => ((List.range (2 * hw + 1)).map (turned tc (2 * hw + 1))).map
        fun y => (left.im (a + x - hw) (b + y - hw), Pandora.sampleCol D (a + x - hw) ((b : K) + d + ((y : Nat) : K) - (hw : K))) := by
    unfold Pandora.windowPairs
    rw [List.flatMap_map]
    refine List.flatMap_congr fun x hx => ?_
    rw [List.map_map]
    refine List.map_congr_left fun y hy => ?_
    rw [List.mem_range] at hx hy
    have hx' := (turned_turned (t := tr) hx).2
    have hy' := (turned_turned (t := tc) hy).2
    have e3 : turned tr H (a + turned tr (2 * hw + 1) x - hw) = turned tr H a + x - hw := by
      cases tr <;> simp only [turned, Bool.false_eq_true, if_true, if_false] <;> omega
    have e4 : turned tc W (b + turned tc (2 * hw + 1) y - hw) = turned tc W b + y - hw := by
      cases tc <;> simp only [turned, Bool.false_eq_true, if_true, if_false] <;> omega
    have hL := hl.values (a + turned tr (2 * hw + 1) x - hw) (by omega) (b + turned tc (2 * hw + 1) y - hw) (by omega)
    rw [s1, s2, e3, e4] at hL
    have e5 : (b : K) + d + ((turned tc (2 * hw + 1) y : Nat) : K) - (hw : K) =
        (b : K) + d + ((((turned tc (2 * hw + 1) y : Nat) : Int) - hw : Int) : K) := by push_cast; ring
    have hR := sample_mirrored hD (x := a + turned tr (2 * hw + 1) x - hw) (by omega)
      (p := (b : K) + d + ((turned tc (2 * hw + 1) y : Nat) : K) - (hw : K))
      (p' := ((turned tc W b : Nat) : K) + opposed tc d + (y : K) - (hw : K)) ?_ ?_ ?_
    · rw [s3, e3] at hR
      simp only [Function.comp]
      rw [hL, hR]
    · cases tc
      · simp [turned, opposed]
      · rw [turned_cast (by omega), turned_cast hy, s4]
        simp only [opposed, if_true]
        rw [show 2 * hw + 1 - 1 = 2 * hw by omega]
        push_cast; ring
    · rw [e5, Int.floor_add_intCast]; omega
    · rw [e5, Int.ceil_add_intCast, s4]; omega
  rw [e]
  unfold Pandora.windowPairs
  exact List.Perm.flatMap (turned_range _ _) fun x _ => (turned_range _ _).map _

theorem window_mirrored {ker : List (F K × F K) → F K} (hk : OrderFree ker) (hl : Mirrored tr tc left left') (hD : Mirrored tr tc D D')
    (s : (left.h = H ∧ left.w = W) ∧ D.h = H ∧ D.w = W) (s' : (left'.h = H ∧ left'.w = W) ∧ D'.h = H ∧ D'.w = W)
    (hv : ∀ x y, Pandora.invalidAt D x y = false) (hv' : ∀ x y, Pandora.invalidAt D' x y = false) (ha : a < H) (hb : b < W)
    (g : (gmin.get a b : K) ≤ d ∧ d ≤ (gmax.get a b : K))
    (g' : (gmin'.get (turned tr H a) (turned tc W b) : K) ≤ opposed tc d ∧ opposed tc d ≤ (gmax'.get (turned tr H a) (turned tc W b) : K)) :
    Pandora.windowCost hw ker left' D' gmin' gmax' (turned tr H a) (turned tc W b) (opposed tc d) =
      Pandora.windowCost hw ker left D gmin gmax a b d := by
  unfold Pandora.windowCost
  by_cases ok : Pandora.windowOk hw left D gmin gmax a b d
  · rw [if_pos ok, if_pos (window_ok_mirrored hl hD s s' hv' g' ok), hk _ _ (window_pairs_mirrored hl hD s ok)]
  · rw [if_neg ok, if_neg fun q => ok ?_]
    have := window_ok_mirrored (gmin' := gmin) (gmax' := gmax) (mirrored_symm hl (by omega)) (mirrored_symm hD (by omega)) s' s hv
      (by rw [(turned_turned ha).1, (turned_turned hb).1, opposed_twice]; exact g) q
    rwa [(turned_turned ha).1, (turned_turned hb).1, opposed_twice] at this

end

/-- An interval of whole numbers which is mirrored is mirrored with its fractions. -/
theorem interval_mirrored {t : Bool} {lo hi lo' hi' : Int} (h : ∀ z : Int, (lo ≤ z ∧ z ≤ hi) ↔ (lo' ≤ opposed t z ∧ opposed t z ≤ hi')) (x : K) :
    ((lo : K) ≤ x ∧ x ≤ (hi : K)) ↔ ((lo' : K) ≤ opposed t x ∧ opposed t x ≤ (hi' : K)) := by
  by_cases he : lo ≤ hi
  · have h1 := (h lo).1 ⟨le_rfl, he⟩
    have h2 := (h hi).1 ⟨he, le_rfl⟩
    cases t
    · simp only [opposed, Bool.false_eq_true, if_false] at *
      have h3 := (h lo').2 ⟨le_rfl, by omega⟩
      have h4 := (h hi').2 ⟨by omega, le_rfl⟩
      rw [show lo = lo' by omega, show hi = hi' by omega]
    · simp only [opposed, if_true] at *
      have h3 := (h (-lo')).2 ⟨by omega, by omega⟩
      have h4 := (h (-hi')).2 ⟨by omega, by omega⟩
      rw [show lo = -hi' by omega, show hi = -lo' by omega]
      push_cast
      constructor <;> rintro ⟨q1, q2⟩ <;> constructor <;> linarith
  · have he' : ¬ lo' ≤ hi' := by
      intro q
      have h3 := (h (opposed t lo')).2 (by rw [opposed_opposed]; exact ⟨le_rfl, q⟩)
      omega
    have c1 : ¬ (lo : K) ≤ hi := by exact_mod_cast he
    have c2 : ¬ (lo' : K) ≤ hi' := by exact_mod_cast he'
    constructor
    · rintro ⟨q1, q2⟩; exact absurd (q1.trans q2) c1
    · rintro ⟨q1, q2⟩; exact absurd (q1.trans q2) c2

/-- Other pairs with the same costs. -/
theorem best_moved {me : Measure} {asked asked' : K → K → Prop} {cost cost' : K → K → F K} {invalid invalid' row col s row' col' s' : F K}
    (σ τ : K → K) (hσ : ∀ x, σ (σ x) = x) (hτ : ∀ x, τ (τ x) = x) (ha : ∀ x y, asked x y ↔ asked' (σ x) (τ y))
    (hc : ∀ x y, asked x y → cost' (σ x) (τ y) = cost x y)
    (k : BestPair me asked cost invalid row col s) (k' : BestPair me asked' cost' invalid' row' col' s') :
    BothInvalid invalid invalid' row col s row' col' s' ∨
    s = s' ∧ s ≠ .nan ∧ ∀ x y : K, (∀ x' y', asked x' y' ∧ cost x' y' = s ↔ x' = x ∧ y' = y) →
      row = .fin x ∧ col = .fin y ∧ row' = .fin (σ x) ∧ col' = .fin (τ y) := by
  have ha' : ∀ x y, asked' x y → asked (σ x) (τ y) := fun x y q => by rw [ha, hσ, hτ]; exact q
  have hc' : ∀ x y, asked' x y → cost (σ x) (τ y) = cost' x y := fun x y q => by rw [← hc _ _ (ha' _ _ q), hσ, hτ]
  by_cases he : ∃ x y, asked x y ∧ cost x y ≠ .nan
  swap
  · push Not at he
    obtain ⟨i1, i2, i3⟩ := k.invalid he
    obtain ⟨i4, i5, i6⟩ := k'.invalid fun x y q => by rw [← hc' x y q]; exact he _ _ (ha' _ _ q)
    exact .inl ⟨i1, i2, i3, i4, i5, i6⟩
  have he' : ∃ x y, asked' x y ∧ cost' x y ≠ .nan := by
    obtain ⟨x, y, q1, q2⟩ := he
    exact ⟨σ x, τ y, (ha _ _).1 q1, by rw [hc x y q1]; exact q2⟩
  obtain ⟨⟨hs, x0, y0, a0, c0⟩, hb⟩ := k.best he
  obtain ⟨⟨hs', x1, y1, a1, c1⟩, hb'⟩ := k'.best he'
  have e : s = s' := good_antisymm (me := me) (hb _ ⟨hs', _, _, ha' _ _ a1, by rw [hc' _ _ a1, c1]⟩)
    (hb' _ ⟨hs, _, _, (ha _ _).1 a0, by rw [hc _ _ a0, c0]⟩)
  subst e
  refine .inr ⟨rfl, hs, fun x y ho => ?_⟩
  obtain ⟨u, v, e1, e2, ⟨v1, p1, p2⟩, ⟨u1, p3, p4⟩, -⟩ := k.smallest he
  obtain ⟨u', v', e1', e2', ⟨v1', p1', p2'⟩, ⟨u1', p3', p4'⟩, -⟩ := k'.smallest he'
  obtain ⟨o1, -⟩ := (ho _ _).1 ⟨p1, p2⟩
  obtain ⟨-, o2⟩ := (ho _ _).1 ⟨p3, p4⟩
  obtain ⟨o3, -⟩ := (ho _ _).1 ⟨ha' _ _ p1', by rw [hc' _ _ p1', p2']⟩
  obtain ⟨-, o4⟩ := (ho _ _).1 ⟨ha' _ _ p3', by rw [hc' _ _ p3', p4']⟩
  rw [e1, e2, e1', e2', o1, o2, ← o3, ← o4, hσ, hτ]
  exact ⟨rfl, rfl, rfl, rfl⟩

/-- C115: mirroring the images (upside down, left to right, or both) opposes the disparities of fractions of pixels. Two successful executions
on full images, without estimation nor refinement, with the same subpixel factor and window cost, whose measure does not depend on the order of
the pixels in the window; the images of the second are those of the first mirrored, its intervals are opposed in the mirrored directions. At
each pixel of the first which is, mirrored, a pixel of the second: both are invalid, or the scores are equal and, when one pair of disparities
only has this cost, both executions give it, opposed in the mirrored directions in the second. -/
theorem C115_mirrored (tr tc : Bool) (w w' : World K) (user user' p p' mc mc' inp inp' l r l' r' : Fields) (out out' : List (Written K))
    (H W : Nat) (dRow dCol dRow' dCol' : Disp) (sr sc sr' sc' : Nat) (invalid invalid' : F K) (n hw : Nat) (me : Measure)
    (ker : List (F K × F K) → F K) (wf : user.wf) (wf' : user'.wf)
    (hdisk : DiskContract w H W) (hpan : PandoraContract w) (hkeeps : PandoraKeeps w.pandora) (hzoom : w.run.zoom = zoomLinear)
    (hdisk' : DiskContract w' H W) (hpan' : PandoraContract w') (hkeeps' : PandoraKeeps w'.pandora) (hzoom' : w'.run.zoom = zoomLinear)
    (cfg : OnFullImages w user p mc inp l r H W dRow dCol sr sc invalid n hw me ker)
    (cfg' : OnFullImages w' user' p' mc' inp' l' r' H W dRow' dCol' sr' sc' invalid' n hw me ker) (hk : OrderFree ker)
    (himg : ∀ left right left' right', ImagesRead w l r none left right → ImagesRead w' l' r' none left' right' →
      Mirrored tr tc left left' ∧ Mirrored tr tc right right')
    (ir : MirroredIntervals tr tc tr dRow dRow' H W) (ic : MirroredIntervals tr tc tc dCol dCol' H W)
    (h : Main.main w user = (out, none)) (h' : Main.main w' user' = (out', none)) :
    ∃ files rest files' rest' left right, ∃ displaced : K → Img K, out = .rasters files :: rest ∧ out' = .rasters files' :: rest' ∧
      ImagesRead w l r none left right ∧
      (∀ dr : K, (∃ a : Int, dr * (n : K) = (a : K)) → Displaced (displaced dr) right dr) ∧
      (∀ f ∈ [files.row, files.col, files.score], (∀ i, i < f.h ↔ i * sr < H) ∧ ∀ j, j < f.w ↔ j * sc < W) ∧
      (∀ f ∈ [files'.row, files'.col, files'.score], (∀ i, i < f.h ↔ i * sr' < H) ∧ ∀ j, j < f.w ↔ j * sc' < W) ∧
      ∀ i j i' j' : Nat, i < files.row.h → j < files.row.w → i' < files'.row.h → j' < files'.row.w →
        i' * sr' = turned tr H (i * sr) → j' * sc' = turned tc W (j * sc) →
        BothInvalid invalid invalid' (files.row.values i j) (files.col.values i j) (files.score.values i j)
          (files'.row.values i' j') (files'.col.values i' j') (files'.score.values i' j') ∨
        files.score.values i j = files'.score.values i' j' ∧ files.score.values i j ≠ .nan ∧ ∃ gmin gmax : Arr2 Int,
          (gmin.get (i * sr) (j * sc) = initAt dCol ((i * sr : Nat) : Int) ((j * sc : Nat) : Int) - dCol.range ∧
            gmax.get (i * sr) (j * sc) = initAt dCol ((i * sr : Nat) : Int) ((j * sc : Nat) : Int) + dCol.range) ∧
          ∀ x y : K, (∀ x' y' : K, AskedPair dRow dCol n ((i * sr : Nat) : Int) ((j * sc : Nat) : Int) x' y' ∧
              Pandora.windowCost hw ker left (displaced x') gmin gmax (i * sr) (j * sc) y' = files.score.values i j ↔ x' = x ∧ y' = y) →
            files.row.values i j = .fin x ∧ files.col.values i j = .fin y ∧
            files'.row.values i' j' = .fin (opposed tr x) ∧ files'.col.values i' j' = .fin (opposed tc y) := by
  obtain ⟨hn, files, rest, left, right, o, im, ⟨⟨s1, s2⟩, s3, s4⟩, z, key⟩ := full_rasters cfg wf hdisk hpan hkeeps h
  obtain ⟨-, files', rest', left', right', o', im', ⟨⟨s1', s2'⟩, s3', s4'⟩, z', key'⟩ := full_rasters cfg' wf' hdisk' hpan' hkeeps' h'
  obtain ⟨tl, tr'⟩ := himg _ _ _ _ im im'
  refine ⟨files, rest, files', rest', left, right, fun x => slabImg zoomLinear right n x, o, o', im,
    fun dr q => slab_displaced right n hn dr q, z, z', fun i j i' j' hi hj hi' hj' e1 e2 => ?_⟩
  have bi : i * sr < H := ((z _ List.mem_cons_self).1 i).1 hi
  have bj : j * sc < W := ((z _ List.mem_cons_self).2 j).1 hj
  obtain ⟨gmin, gmax, ⟨g1, g2⟩, k⟩ := key i hi j hj
  obtain ⟨gmin', gmax', ⟨g1', g2'⟩, k'⟩ := key' i' hi' j' hj'
  rw [e1, e2] at k' g1' g2'
  rw [hzoom] at k
  rw [hzoom'] at k'
  have int : ∀ (t : Bool) (d : K), (∃ a : Int, d * (n : K) = a) ↔ ∃ a : Int, opposed t d * (n : K) = a := by
    intro t d
    cases t
    · rfl
    · simp only [opposed, if_true, neg_mul]
      constructor
      · rintro ⟨a, ha⟩; exact ⟨-a, by push_cast; rw [ha]⟩
      · rintro ⟨a, ha⟩; exact ⟨-a, by push_cast; rw [← ha, neg_neg]⟩
  have row : ∀ x : K, _ := fun x => interval_mirrored (K := K) (ir (i * sr) bi (j * sc) bj) x
  have col : ∀ x : K, _ := fun x => interval_mirrored (K := K) (ic (i * sr) bi (j * sc) bj) x
  have hask : ∀ x y : K, AskedPair dRow dCol n ((i * sr : Nat) : Int) ((j * sc : Nat) : Int) x y ↔
      AskedPair dRow' dCol' n ((turned tr H (i * sr) : Nat) : Int) ((turned tc W (j * sc) : Nat) : Int) (opposed tr x) (opposed tc y) := by
    intro x y
    unfold AskedPair
    rw [row, col]
    refine and_congr_left' ⟨?_, ?_⟩
    · rintro ⟨u, v, h1, h2⟩
      obtain ⟨u', h1'⟩ := (int tr x).1 ⟨u, h1⟩
      obtain ⟨v', h2'⟩ := (int tc y).1 ⟨v, h2⟩
      exact ⟨u', v', h1', h2'⟩
    · rintro ⟨u, v, h1, h2⟩
      obtain ⟨u', h1'⟩ := (int tr x).2 ⟨u, h1⟩
      obtain ⟨v', h2'⟩ := (int tc y).2 ⟨v, h2⟩
      exact ⟨u', v', h1', h2'⟩
  have cost := best_moved (opposed tr) (opposed tc) (opposed_twice tr) (opposed_twice tc) hask (fun x y q => ?_) k k'
  · rcases cost with q | ⟨q1, q2, q3⟩
    · exact .inl q
    · exact .inr ⟨q1, q2, gmin, gmax, ⟨g1, g2⟩, q3⟩
  · have q' := (hask x y).1 q
    obtain ⟨⟨u, -, hx, -⟩, -, q3, q4⟩ := q
    obtain ⟨⟨u', -, hx', -⟩, -, q3', q4'⟩ := q'
    have A := slab_displaced right n hn x ⟨u, hx⟩
    have A' := slab_displaced right' n hn (opposed tr x) ⟨u', hx'⟩
    refine window_mirrored hk tl (displaced_mirrored A A' ⟨by omega, by omega⟩ tr')
      ⟨⟨s1, s2⟩, A.size.1.trans s3, A.size.2.trans s4⟩ ⟨⟨s1', s2'⟩, A'.size.1.trans s3', A'.size.2.trans s4'⟩ A.valid A'.valid bi bj
      ⟨?_, ?_⟩ ⟨?_, ?_⟩
    · rw [g1]; exact q3
    · rw [g2]; exact q4
    · rw [g1']; exact q3'
    · rw [g2']; exact q4'

/-! ## Examples -/

/-- Whatever the two images, turned by half a turn, the initial disparities being opposite, with disparities of half pixels. -/
example (fl fr : Nat → Nat → F ℚ) : ∃ files rest files' rest',
    Main.main (exWorldT fl fr) (exUserSub 1 2 (.int 1)) = (.rasters files :: rest, none) ∧
    Main.main (exWorldT (fun x y => fl (2 - x) (2 - y)) (fun x y => fr (2 - x) (2 - y))) (exUserSub 1 2 (.int (-1))) = (.rasters files' :: rest', none) ∧
    ∀ i < 3, ∀ j < 3, files.score.values i j = files'.score.values (2 - i) (2 - j) := by
  obtain ⟨p, inp, cfg⟩ := exWorldT_full fl fr 1 2 (.inr rfl)
  obtain ⟨p', inp', cfg'⟩ := exWorldT_full (fun x y => fl (2 - x) (2 - y)) (fun x y => fr (2 - x) (2 - y)) (-1) 2 (.inr rfl)
  have r := exWorldT_runs_half fl fr 1 (.inl rfl)
  have r' := exWorldT_runs_half (fun x y => fl (2 - x) (2 - y)) (fun x y => fr (2 - x) (2 - y)) (-1) (.inr rfl)
  have ct := exWorldT_contract fl fr
  have ct' := exWorldT_contract (fun x y => fl (2 - x) (2 - y)) (fun x y => fr (2 - x) (2 - y))
  have mir : ∀ f : Nat → Nat → F ℚ, Mirrored true true (exImgT f) (exImgT fun x y => f (2 - x) (2 - y)) := fun f => by
    have e : ∀ x < 3, 2 - turned true 3 x = x := fun x hx => by simp only [turned, if_true]; omega
    refine ⟨rfl, fun x hx y hy => ?_, fun _ _ _ _ => rfl, fun _ _ _ _ => rfl⟩
    show f (2 - turned true 3 x) (2 - turned true 3 y) = f x y
    rw [e x hx, e y hy]
  have int : MirroredIntervals true true true ⟨.const 1, 1⟩ ⟨.const (-1), 1⟩ 3 3 := by
    intro x _ y _ z
    simp only [initAt, opposed, if_true]
    omega
  obtain ⟨files, rest, files', rest', left, right, displaced, o, o', im, -, z, z', key⟩ := C115_mirrored true true _ _ _ _ _ _ _ _ _ _ _ _ _ _ _ _ 3 3
    _ _ _ _ 1 1 1 1 _ _ 2 0 .min sad
    (exUserSub_wf _ _ _ (by simp [J.wf])) (exUserSub_wf _ _ _ (by simp [J.wf])) ct.disk ct.pandora ct.keeps rfl ct'.disk ct'.pandora ct'.keeps rfl
    cfg cfg' (sumOf_orderFree _) (fun left right left' right' h h' => by
      obtain ⟨rfl, rfl⟩ := exWorldT_images _ _ _ _ h
      obtain ⟨rfl, rfl⟩ := exWorldT_images _ _ _ _ h'
      exact ⟨mir fl, mir fr⟩) int int r r'
  have b := z _ List.mem_cons_self
  have b' := z' _ List.mem_cons_self
  refine ⟨files, rest, files', rest', by rw [r]; exact congrArg (·, none) o, by rw [r']; exact congrArg (·, none) o', fun i hi j hj => ?_⟩
  rcases key i j (2 - i) (2 - j) ((b.1 i).2 (by omega)) ((b.2 j).2 (by omega)) ((b'.1 _).2 (by omega)) ((b'.2 _).2 (by omega))
    (by simp only [turned, if_true]; omega) (by simp only [turned, if_true]; omega) with q | q
  · rw [q.2.2.1, q.2.2.2.2.2]
  · exact q.1

end Verif.Props
