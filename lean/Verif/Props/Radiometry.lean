import Verif.Props.NoDataValue

/-!
# C114: brightness and contrast, with fractions of pixels
-/

namespace Verif.Props

open Verif Verif.Config Verif.Machine Verif.ImgTools Verif.MatchingCost Verif.Disparity Verif.Run Verif.Main Verif.Spec Verif.Save
  Verif.Statistics

set_option linter.unusedSectionVars false

variable {K : Type} [Field K] [LinearOrder K] [IsStrictOrderedRing K] [FloorRing K]

/-- An affine change commutes with an interpolation. -/
theorem affine_lerp {k : K} (c : K) (hk : 0 < k) {t : K} (h0 : 0 < t) (h1 : t < 1) (a b : F K) :
    F.add (F.mul (.fin (1 - t)) (affine k c a)) (F.mul (.fin t) (affine k c b)) =
      affine k c (F.add (F.mul (.fin (1 - t)) a) (F.mul (.fin t) b)) := by
  have e1 : (1 : K) - t ≠ 0 := by linarith
  have e2 : (0 : K) < 1 - t := by linarith
  have e3 : t ≠ 0 := ne_of_gt h0
  have e4 : k ≠ 0 := ne_of_gt hk
  cases a <;> cases b <;> simp [affine, F.mul, F.add, e1, e3, e4, h0, h1, hk]
  ring

theorem affine_eq {k : K} (c : K) (hk : 0 < k) (a b : F K) : F.eq (affine k c a) (affine k c b) = F.eq a b := by
  have e4 : k ≠ 0 := ne_of_gt hk
  cases a <;> cases b <;> simp [affine, F.mul, F.add, F.eq, e4, hk]

/-- The displaced image of an image seen through an affine change. -/
theorem displaced_seen {D D' right right' : Img K} {d k c : K} (hk : 0 < k) (h : Displaced D right d) (h' : Displaced D' right' d)
    (hs : right'.h = right.h ∧ right'.w = right.w) (hr : Regraded (affine k c) right right') {x y : Nat} (hx : x < right.h) (hy : y < right.w) :
    D'.im x y = affine k c (D.im x y) ∧ Pandora.noDataAt D' x y = Pandora.noDataAt D x y := by
  have key : D'.im x y = affine k c (D.im x y) := by
    obtain ⟨k1, k2⟩ := h.samples x hx y hy
    obtain ⟨k1', k2'⟩ := h'.samples x (by omega) y (by omega)
    rw [hs.1] at k1' k2'
    by_cases hout : (x : K) + d < 0 ∨ ((right.h - 1 : Nat) : K) < (x : K) + d
    · rw [k2 hout, k2' hout, hr.noData]
    · push Not at hout
      obtain ⟨h0, h1⟩ := hout
      have hf : 0 ≤ ⌊(x : K) + d⌋ := Int.floor_nonneg.2 h0
      obtain ⟨q, hq⟩ := Int.eq_ofNat_of_zero_le hf
      have hpos : (x : K) + d = (q : K) + Int.fract ((x : K) + d) := by
        conv_lhs => rw [← Int.floor_add_fract ((x : K) + d), hq]
        simp
      rw [k1 q _ (Int.fract_nonneg _) (Int.fract_lt_one _) hpos h1, k1' q _ (Int.fract_nonneg _) (Int.fract_lt_one _) hpos h1]
      have hqh : q ≤ right.h - 1 := by
        have : (q : K) ≤ ((right.h - 1 : Nat) : K) := by
          have := Int.fract_nonneg ((x : K) + d)
          rw [hpos] at h1
          linarith
        exact_mod_cast this
      unfold lerpRow
      split_ifs with hz
      · exact hr.values _ (by omega) _ hy
      · have hz' : 0 < Int.fract ((x : K) + d) := lt_of_le_of_ne (Int.fract_nonneg _) (Ne.symm hz)
        have hq1 : q + 1 ≤ right.h - 1 := by
          have : (q : K) < ((right.h - 1 : Nat) : K) := by
            rw [hpos] at h1
            linarith
          have : q < right.h - 1 := by exact_mod_cast this
          omega
        rw [hr.values _ (by omega) _ hy, hr.values _ (by omega) _ hy, affine_lerp c hk hz' (Int.fract_lt_one _)]
  refine ⟨key, ?_⟩
  rw [h.flags, h'.flags, key, hr.noData, affine_eq c hk]

/-- The cost of windows seen through affine changes. -/
theorem window_seen {hw : Nat} {ker : List (F K × F K) → F K} {left right left' right' D D' : Img K} {gmin gmax gmin' gmax' : Arr2 Int}
    {a b : Nat} {d e kr cr : K} {gl φ : F K → F K} (hk : 0 < kr) (hs : (left'.h = left.h ∧ left'.w = left.w) ∧ right'.h = right.h ∧ right'.w = right.w)
    (hlr : left.h = right.h)
    (g : (gmin.get a b : K) ≤ d ∧ d ≤ (gmax.get a b : K)) (g' : (gmin'.get a b : K) ≤ d ∧ d ≤ (gmax'.get a b : K))
    (hl : Regraded gl left left') (hr : Regraded (affine kr cr) right right') (hD : Displaced D right e) (hD' : Displaced D' right' e)
    (hf : Follows ker gl (affine kr cr) φ) :
    Pandora.windowCost hw ker left' D' gmin' gmax' a b d = φ (Pandora.windowCost hw ker left D gmin gmax a b d) := by
  obtain ⟨⟨s1, s2⟩, s3, s4⟩ := hs
  have w1 : D'.w = right.w := hD'.size.2.trans s4
  have w2 : D.w = right.w := hD.size.2
  have seen : ∀ x y, x < right.h → y < right.w → _ := fun x y hx hy => displaced_seen (x := x) (y := y) hk hD hD' ⟨s3, s4⟩ hr hx hy
  have hok : Pandora.windowOk hw left' D' gmin' gmax' a b d ↔ Pandora.windowOk hw left D gmin gmax a b d := by
    unfold Pandora.windowOk
    rw [s1, s2, w1, w2]
    simp only [g, g', hD.valid, hD'.valid, and_self, true_and, and_true]
    refine and_congr_right fun h1 => and_congr_right fun h2 => ?_
    obtain ⟨b1, b2, b3, b4⟩ := h1
    obtain ⟨b5, b6⟩ := h2
    rw [hl.valid a (by omega) b (by omega)]
    refine and_congr ?_ (and_congr_left' ?_)
    · constructor
      · intro h x hx y hy
        rw [← hl.flags (a + x - hw) (by omega) (b + y - hw) (by omega)]
        exact h x hx y hy
      · intro h x hx y hy
        rw [hl.flags (a + x - hw) (by omega) (b + y - hw) (by omega)]
        exact h x hx y hy
    · constructor
      · intro h x hx y y1 y2
        rw [← (seen (a + x - hw) y (by omega) (by omega)).2]
        exact h x hx y y1 y2
      · intro h x hx y y1 y2
        rw [(seen (a + x - hw) y (by omega) (by omega)).2]
        exact h x hx y y1 y2
  unfold Pandora.windowCost
  by_cases ok : Pandora.windowOk hw left D gmin gmax a b d
  · rw [if_pos ok, if_pos (hok.2 ok), ← hf.measure]
    obtain ⟨⟨b1, b2, b3, b4⟩, ⟨b5, b6⟩, -⟩ := ok
    rw [w2] at b6
    congr 1
    unfold Pandora.windowPairs
    rw [List.map_flatMap]
    refine List.flatMap_congr fun x hx => ?_
    rw [List.map_map]
    refine List.map_congr_left fun y hy => ?_
    rw [List.mem_range] at hx hy
    refine Prod.ext (hl.values _ (by omega) _ (by omega)) ?_
    show Pandora.sampleCol D' _ _ = affine kr cr (Pandora.sampleCol D _ _)
    have e : (b : K) + d + ((y : Nat) : K) - (hw : K) = (b : K) + d + (((y : Int) - hw : Int) : K) := by push_cast; ring
    unfold Pandora.sampleCol
    rw [e, Int.floor_add_intCast, Int.fract_add_intCast]
    have hfc := Int.floor_le_ceil ((b : K) + d)
    have s0 := (seen (a + x - hw) (⌊(b : K) + d⌋ + ((y : Int) - hw)).toNat (by omega) (by omega)).1
    split_ifs with hz
    · exact s0
    · have hz' : 0 < Int.fract ((b : K) + d) := lt_of_le_of_ne (Int.fract_nonneg _) (Ne.symm hz)
      have hcl : ⌈(b : K) + d⌉ = ⌊(b : K) + d⌋ + 1 := by
        rw [Int.ceil_eq_iff]
        have hlt := Int.fract_lt_one ((b : K) + d)
        have hsum := Int.floor_add_fract ((b : K) + d)
        push_cast
        constructor <;> linarith
      have s1 := (seen (a + x - hw) ((⌊(b : K) + d⌋ + ((y : Int) - hw)).toNat + 1) (by omega) (by omega)).1
      rw [s0, s1, affine_lerp cr hk hz' (Int.fract_lt_one _)]
  · rw [if_neg ok, if_neg fun q => ok (hok.1 q), (hf.nan _).2 rfl]

/-- The best pair, of costs seen through `φ`. -/
theorem best_seen {me : Measure} {asked : K → K → Prop} {cost cost' : K → K → F K} {invalid invalid' row col s row' col' s' : F K} {φ : F K → F K}
    (hn : ∀ s, φ s = .nan ↔ s = .nan) (ho : ∀ s t, F.le (φ s) (φ t) = F.le s t)
    (hc : ∀ x y, asked x y → cost' x y = φ (cost x y))
    (k : BestPair me asked cost invalid row col s) (k' : BestPair me asked cost' invalid' row' col' s') :
    BothInvalid invalid invalid' row col s row' col' s' ∨ s ≠ .nan ∧ row' = row ∧ col' = col ∧ s' = φ s := by
  by_cases he : ∃ x y, asked x y ∧ cost x y ≠ .nan
  swap
  · push Not at he
    obtain ⟨i1, i2, i3⟩ := k.invalid he
    obtain ⟨i4, i5, i6⟩ := k'.invalid fun x y q => by rw [hc x y q, hn]; exact he x y q
    exact .inl ⟨i1, i2, i3, i4, i5, i6⟩
  have he' : ∃ x y, asked x y ∧ cost' x y ≠ .nan := by
    obtain ⟨x, y, q1, q2⟩ := he
    exact ⟨x, y, q1, by rw [hc x y q1, Ne, hn]; exact q2⟩
  obtain ⟨⟨hs, x0, y0, a0, c0⟩, hb⟩ := k.best he
  obtain ⟨⟨hs', x1, y1, a1, c1⟩, hb'⟩ := k'.best he'
  have inj : ∀ a b, a ≠ .nan → φ a = φ b → a = b := by
    intro a b ha e
    have r : F.le (φ a) (φ a) = true := by
      rw [ho]
      cases a with
      | nan => exact absurd rfl ha
      | _ => simp [F.le]
    exact F.le_antisymm' (by rw [← ho, ← e]; exact r) (by rw [← ho, ← e]; exact r)
  have good : ∀ a b, AtLeastAsGood me (φ a) (φ b) ↔ AtLeastAsGood me a b := by
    intro a b
    cases me <;> simp only [AtLeastAsGood, ho]
  have hφ : φ s ≠ .nan := fun q => hs ((hn _).1 q)
  have e : s' = φ s := by
    rw [hc x1 y1 a1] at c1
    have t1 : cost x1 y1 ≠ .nan := fun q => hs' (by rw [← c1, q]; exact (hn _).2 rfl)
    refine good_antisymm (me := me) (hb' _ ⟨hφ, x0, y0, a0, by rw [hc x0 y0 a0, c0]⟩) ?_
    rw [← c1, good]
    exact hb _ ⟨t1, x1, y1, a1, rfl⟩
  obtain ⟨u, v, e1, e2, ⟨v1, p1, p2⟩, ⟨u1, p3, p4⟩, hsm⟩ := k.smallest he
  obtain ⟨u', v', e1', e2', ⟨v1', p1', p2'⟩, ⟨u1', p3', p4'⟩, hsm'⟩ := k'.smallest he'
  have back : ∀ x y, asked x y → cost' x y = s' → cost x y = s := fun x y q1 q2 => by
    rw [hc x y q1, e] at q2
    exact (inj _ _ hs q2.symm).symm
  have forth : ∀ x y, asked x y → cost x y = s → cost' x y = s' := fun x y q1 q2 => by rw [hc x y q1, q2, e]
  refine .inr ⟨hs, ?_, ?_, e⟩
  · rw [e1, e1', le_antisymm (hsm' _ _ p1 (forth _ _ p1 p2)).1 (hsm _ _ p1' (back _ _ p1' p2')).1]
  · rw [e2, e2', le_antisymm (hsm' _ _ p3 (forth _ _ p3 p4)).2 (hsm _ _ p3' (back _ _ p3' p4')).2]

/-- C114: a change of brightness and contrast which the measure follows does not change the disparities, even of fractions of pixels. Two
successful executions on full images, without estimation nor refinement, with the same subpixel factor, window cost and intervals: the values of
the left image of the second are those of the first seen through `gl`, those of its right image, and its no-data value, are multiplied by
`kr > 0` and shifted by `cr`, with the same flags, and the measure of windows so seen is the measure seen through `φ`, which keeps the order of
the scores. At each pixel of both rasters, both are invalid, or the disparities are the same and the score of the second is the one of the
first seen through `φ`. -/
theorem C114_brightness (w w' : World K) (user user' p p' mc mc' inp inp' l r l' r' : Fields) (out out' : List (Written K))
    (H W : Nat) (dRow dCol dRow' dCol' : Disp) (sr sc sr' sc' : Nat) (invalid invalid' : F K) (n hw : Nat) (me : Measure)
    (ker : List (F K × F K) → F K) (gl φ : F K → F K) (kr cr : K) (wf : user.wf) (wf' : user'.wf)
    (hdisk : DiskContract w H W) (hpan : PandoraContract w) (hkeeps : PandoraKeeps w.pandora) (hzoom : w.run.zoom = zoomLinear)
    (hdisk' : DiskContract w' H W) (hpan' : PandoraContract w') (hkeeps' : PandoraKeeps w'.pandora) (hzoom' : w'.run.zoom = zoomLinear)
    (cfg : OnFullImages w user p mc inp l r H W dRow dCol sr sc invalid n hw me ker)
    (cfg' : OnFullImages w' user' p' mc' inp' l' r' H W dRow' dCol' sr' sc' invalid' n hw me ker)
    (hkr : 0 < kr) (hk : Follows ker gl (affine kr cr) φ)
    (himg : ∀ left right left' right', ImagesRead w l r none left right → ImagesRead w' l' r' none left' right' →
      Regraded gl left left' ∧ Regraded (affine kr cr) right right')
    (ir : ∀ x < H, ∀ y < W, SameIntervalMoved dRow dRow' x y x y) (ic : ∀ x < H, ∀ y < W, SameIntervalMoved dCol dCol' x y x y)
    (h : Main.main w user = (out, none)) (h' : Main.main w' user' = (out', none)) :
    ∃ files rest files' rest', out = .rasters files :: rest ∧ out' = .rasters files' :: rest' ∧
      (∀ f ∈ [files.row, files.col, files.score], (∀ i, i < f.h ↔ i * sr < H) ∧ ∀ j, j < f.w ↔ j * sc < W) ∧
      (∀ f ∈ [files'.row, files'.col, files'.score], (∀ i, i < f.h ↔ i * sr' < H) ∧ ∀ j, j < f.w ↔ j * sc' < W) ∧
      ∀ i j i' j' : Nat, i < files.row.h → j < files.row.w → i' < files'.row.h → j' < files'.row.w → i' * sr' = i * sr → j' * sc' = j * sc →
        BothInvalid invalid invalid' (files.row.values i j) (files.col.values i j) (files.score.values i j)
          (files'.row.values i' j') (files'.col.values i' j') (files'.score.values i' j') ∨
        files.score.values i j ≠ .nan ∧ files'.row.values i' j' = files.row.values i j ∧ files'.col.values i' j' = files.col.values i j ∧
          files'.score.values i' j' = φ (files.score.values i j) := by
  obtain ⟨hn, files, rest, left, right, o, im, ⟨⟨s1, s2⟩, s3, s4⟩, z, key⟩ := full_rasters cfg wf hdisk hpan hkeeps h
  obtain ⟨-, files', rest', left', right', o', im', ⟨⟨s1', s2'⟩, s3', s4'⟩, z', key'⟩ := full_rasters cfg' wf' hdisk' hpan' hkeeps' h'
  obtain ⟨gl', gr'⟩ := himg _ _ _ _ im im'
  refine ⟨files, rest, files', rest', o, o', z, z', fun i j i' j' hi hj hi' hj' e1 e2 => ?_⟩
  have bi : i * sr < H := ((z _ List.mem_cons_self).1 i).1 hi
  have bj : j * sc < W := ((z _ List.mem_cons_self).2 j).1 hj
  obtain ⟨gmin, gmax, ⟨g1, g2⟩, k⟩ := key i hi j hj
  obtain ⟨gmin', gmax', ⟨g1', g2'⟩, k'⟩ := key' i' hi' j' hj'
  rw [e1, e2] at k' g1' g2'
  rw [hzoom] at k
  rw [hzoom'] at k'
  obtain ⟨r1, r2⟩ := ir _ bi _ bj
  obtain ⟨c1, c2⟩ := ic _ bi _ bj
  have hask : ∀ x y : K, AskedPair dRow dCol n ((i * sr : Nat) : Int) ((j * sc : Nat) : Int) x y ↔
      AskedPair dRow' dCol' n ((i * sr : Nat) : Int) ((j * sc : Nat) : Int) x y := fun x y => by
    unfold AskedPair; rw [r1, r2, c1, c2]
  refine best_seen hk.nan hk.order (fun x y q => ?_) k (best_asked (fun x y => (hask x y).symm) k')
  obtain ⟨⟨u, -, hx, -⟩, -, q3, q4⟩ := q
  refine window_seen hkr ⟨⟨by omega, by omega⟩, by omega, by omega⟩ (by omega) ⟨?_, ?_⟩ ⟨?_, ?_⟩ gl' gr'
    (slab_displaced right n hn x ⟨u, hx⟩) (slab_displaced right' n hn x ⟨u, hx⟩) hk
  · rw [g1]; exact q3
  · rw [g2]; exact q4
  · rw [g1', ← c1]; exact q3
  · rw [g2', ← c2]; exact q4

/-! ## Examples -/

theorem exWorldT_full (fl fr : Nat → Nat → F ℚ) (z : Int) (n : Nat) (hn : n = 1 ∨ n = 2) :
    ∃ p inp, OnFullImages (exWorldT fl fr) (exUserSub 1 n (.int z)) p (exMc 1 n) inp exL exR 3 3 ⟨.const z, 1⟩ ⟨.const z, 1⟩ 1 1 .nan
      n 0 .min sad := by
  refine ⟨_, _, rfl, rfl, rfl, rfl, rfl, rfl, rfl, rfl, ?_,
    ⟨⟨_, rfl, ⟨_, _, _, rfl, rfl, rfl, .inl rfl, .inl ⟨_, .inl rfl, rfl⟩⟩, ⟨_, _, _, rfl, rfl, rfl, .inl rfl, .inl ⟨_, .inl rfl, rfl⟩⟩⟩,
    .inr ⟨rfl, rfl, rfl, rfl, rfl⟩,
    ⟨_, _, _, rfl, rfl, rfl, .inl ⟨_, _, rfl, .inl rfl, .inl rfl⟩, .inl ⟨_, rfl, .inr (.inr (.inl ⟨rfl, rfl⟩))⟩⟩⟩⟩
  rcases hn with rfl | rfl
  · exact ⟨_, _, _, _, _, .int 1, rfl, rfl, rfl, .inl rfl, rfl, rfl⟩
  · exact ⟨_, _, _, _, _, .int 2, rfl, rfl, rfl, .inl rfl, rfl, rfl⟩

theorem exWorldT_runs_half (fl fr : Nat → Nat → F ℚ) (z : Int) (hz : z = 1 ∨ z = -1) :
    Main.main (exWorldT fl fr) (exUserSub 1 2 (.int z)) = ((Main.main (exWorldT fl fr) (exUserSub 1 2 (.int z))).1, none) := by
  have : (Main.main (exWorldT fl fr) (exUserSub 1 2 (.int z))).2 = none := by
    obtain ⟨m, cfg, h⟩ := accepted_ok (w := exWorldP) (user := exUserSub 1 2 (.int z)) (by rcases hz with rfl | rfl <;> decide +kernel)
    refine (C99_runs_exactly (exWorldT fl fr) _ _ _ cfg m 3 3 1 1 (exUserSub_wf _ _ _ (by simp [J.wf])) (exWorldT_contract fl fr) rfl ?_ rfl
      (.inl ⟨_, _, rfl, .inl rfl, .inl rfl⟩) rfl ⟨by decide, by decide⟩ (fun _ _ _ _ => ⟨_, _, rfl⟩) h).2 ⟨.inl ⟨rfl, rfl⟩, ?_⟩
    · simp [dict, Fields.keys]
    · intro f hf
      simp [dict, Fields.get] at hf
  exact Prod.ext rfl this

/-- Two images and the images of another contrast and brightness, with disparities of half pixels. -/
example (fl fr : Nat → Nat → F ℚ) : ∃ files rest files' rest',
    Main.main (exWorldT fl fr) (exUserSub 1 2 (.int (-1))) = (.rasters files :: rest, none) ∧
    Main.main (exWorldT (fun x y => affine 2 1 (fl x y)) (fun x y => affine 2 1 (fr x y))) (exUserSub 1 2 (.int (-1))) = (.rasters files' :: rest', none) ∧
    ∀ i < 3, ∀ j < 3, files'.row.values i j = files.row.values i j ∧ files'.col.values i j = files.col.values i j ∧
      files'.score.values i j = F.mul (.fin 2) (files.score.values i j) := by
  obtain ⟨p, inp, cfg⟩ := exWorldT_full fl fr (-1) 2 (.inr rfl)
  obtain ⟨p', inp', cfg'⟩ := exWorldT_full (fun x y => affine 2 1 (fl x y)) (fun x y => affine 2 1 (fr x y)) (-1) 2 (.inr rfl)
  have r := exWorldT_runs_half fl fr (-1) (.inr rfl)
  have r' := exWorldT_runs_half (fun x y => affine 2 1 (fl x y)) (fun x y => affine 2 1 (fr x y)) (-1) (.inr rfl)
  have ct := exWorldT_contract fl fr
  have ct' := exWorldT_contract (fun x y => affine 2 1 (fl x y)) (fun x y => affine 2 1 (fr x y))
  have inj : ∀ v : F ℚ, affine 2 1 v = affine 2 1 (.fin (-1)) → v = .fin (-1) := by
    intro v h
    cases v <;> simp [affine, F.mul, F.add] at h ⊢
    linarith
  have reg : ∀ f : Nat → Nat → F ℚ, Regraded (affine 2 1) (exImgT f) (exImgT fun x y => affine 2 1 (f x y)) := fun f =>
    ⟨by simp [exImgT, exLeftImg, affine, F.mul, F.add]; norm_num, fun _ _ _ _ => rfl, fun x _ y _ h => inj _ h, fun _ _ _ _ => rfl,
      fun _ _ _ _ => rfl⟩
  obtain ⟨files, rest, files', rest', o, o', z, z', key⟩ := C114_brightness _ _ _ _ _ _ _ _ _ _ _ _ _ _ _ _ 3 3
    _ _ _ _ 1 1 1 1 _ _ 2 0 .min sad (affine 2 1) (F.mul (.fin 2)) 2 1
    (exUserSub_wf _ _ _ (by simp [J.wf])) (exUserSub_wf _ _ _ (by simp [J.wf])) ct.disk ct.pandora ct.keeps rfl ct'.disk ct'.pandora ct'.keeps rfl
    cfg cfg' (by norm_num) (sad_affine 1 (by norm_num)) (fun left right left' right' h h' => by
      obtain ⟨rfl, rfl⟩ := exWorldT_images _ _ _ _ h
      obtain ⟨rfl, rfl⟩ := exWorldT_images _ _ _ _ h'
      exact ⟨reg fl, reg fr⟩) (fun _ _ _ _ => ⟨rfl, rfl⟩) (fun _ _ _ _ => ⟨rfl, rfl⟩) r r'
  have b := z _ List.mem_cons_self
  have b' := z' _ List.mem_cons_self
  refine ⟨files, rest, files', rest', by rw [r]; exact congrArg (·, none) o, by rw [r']; exact congrArg (·, none) o', fun i hi j hj => ?_⟩
  rcases key i j i j ((b.1 i).2 (by omega)) ((b.2 j).2 (by omega)) ((b'.1 _).2 (by omega)) ((b'.2 _).2 (by omega)) rfl rfl with
    ⟨q1, q2, q3, q4, q5, q6⟩ | q
  · rw [q1, q2, q3, q4, q5, q6]
    exact ⟨rfl, rfl, rfl⟩
  · exact q.2

end Verif.Props
