import Verif.Spec.Local
import Verif.Props.Values
import Verif.Props.Usable

/-!
# C104: the part of the images a pixel of the rasters depends on
-/

namespace Verif.Props

open Verif Verif.Config Verif.Machine Verif.ImgTools Verif.MatchingCost Verif.Disparity Verif.Run Verif.Main Verif.Spec Verif.Save
  Verif.Statistics

set_option linter.unusedSectionVars false

variable {K : Type} [Field K] [LinearOrder K] [IsStrictOrderedRing K] [FloorRing K]

/-- An image displaced by `d` rows holds at row `x` what the rows of the original around `x + d` hold. -/
theorem displaced_local {D D' right right' : Img K} {d : K} (h : Displaced D right d) (h' : Displaced D' right' d)
    (hs : right'.h = right.h ∧ right'.w = right.w) (hnd : right'.noData = right.noData) {x y : Nat} (hx : x < right.h) (hy : y < right.w)
    (heq : ∀ q : Nat, q < right.h → ⌊(x : K) + d⌋ ≤ (q : Int) → (q : Int) ≤ ⌈(x : K) + d⌉ → right'.im q y = right.im q y) :
    D'.im x y = D.im x y := by
  obtain ⟨k1, k2⟩ := h.samples x hx y hy
  obtain ⟨k1', k2'⟩ := h'.samples x (by omega) y (by omega)
  rw [hs.1] at k1' k2'
  by_cases hout : (x : K) + d < 0 ∨ ((right.h - 1 : Nat) : K) < (x : K) + d
  · rw [k2 hout, k2' hout, hnd]
  · push Not at hout
    obtain ⟨h0, h1⟩ := hout
    have hf : 0 ≤ ⌊(x : K) + d⌋ := Int.floor_nonneg.2 h0
    obtain ⟨q, hq⟩ := Int.eq_ofNat_of_zero_le hf
    have hpos : (x : K) + d = (q : K) + Int.fract ((x : K) + d) := by
      conv_lhs => rw [← Int.floor_add_fract ((x : K) + d), hq]
      simp
    rw [k1 q _ (Int.fract_nonneg _) (Int.fract_lt_one _) hpos h1, k1' q _ (Int.fract_nonneg _) (Int.fract_lt_one _) hpos h1]
    have hqh : q ≤ right.h - 1 := by
      have : (q : K) ≤ ((right.h - 1 : Nat) : K) := by
        have := Int.fract_nonneg ((x : K) + d)
        rw [hpos] at h1
        linarith
      exact_mod_cast this
    have e0 : right'.im q y = right.im q y := heq q (by omega) (by omega) (by have := Int.floor_le_ceil ((x : K) + d); omega)
    unfold lerpRow
    split_ifs with hz
    · exact e0
    · have hq1 : q + 1 ≤ right.h - 1 := by
        have hz' : 0 < Int.fract ((x : K) + d) := lt_of_le_of_ne (Int.fract_nonneg _) (Ne.symm hz)
        have : (q : K) < ((right.h - 1 : Nat) : K) := by
          rw [hpos] at h1
          linarith
        have : q < right.h - 1 := by exact_mod_cast this
        omega
      have hc : ⌈(x : K) + d⌉ = (q : Int) + 1 := by
        rw [Int.ceil_eq_iff]
        have hz' : 0 < Int.fract ((x : K) + d) := lt_of_le_of_ne (Int.fract_nonneg _) (Ne.symm hz)
        have hl := Int.fract_lt_one ((x : K) + d)
        push_cast
        constructor <;> linarith
      rw [e0, heq (q + 1) (by omega) (by omega) (by omega)]

/-- A window cost only depends on the two windows. -/
theorem window_local {hw : Nat} {ker : List (F K × F K) → F K} {left right left' right' : Img K} {gmin gmax gmin' gmax' : Arr2 Int}
    {a b : Nat} {d : K} (hs : (left'.h = left.h ∧ left'.w = left.w) ∧ right'.w = right.w)
    (g : (gmin.get a b : K) ≤ d ∧ d ≤ (gmax.get a b : K)) (g' : (gmin'.get a b : K) ≤ d ∧ d ≤ (gmax'.get a b : K))
    (hl : ∀ x y : Nat, a ≤ x + hw → x ≤ a + hw → b ≤ y + hw → y ≤ b + hw →
      left'.im x y = left.im x y ∧ Pandora.noDataAt left' x y = Pandora.noDataAt left x y)
    (hc : Pandora.invalidAt left' a b = Pandora.invalidAt left a b)
    (hr : a + hw < left.h → ∀ x y : Nat, a ≤ x + hw → x ≤ a + hw → y < right.w → ⌊(b : K) + d⌋ ≤ (y : Int) + hw → (y : Int) ≤ ⌈(b : K) + d⌉ + hw →
      right'.im x y = right.im x y ∧ Pandora.noDataAt right' x y = Pandora.noDataAt right x y)
    (hv : ∀ x y, Pandora.invalidAt right x y = false) (hv' : ∀ x y, Pandora.invalidAt right' x y = false) :
    Pandora.windowCost hw ker left' right' gmin' gmax' a b d = Pandora.windowCost hw ker left right gmin gmax a b d := by
  unfold Pandora.windowCost
  have hok : Pandora.windowOk hw left' right' gmin' gmax' a b d ↔ Pandora.windowOk hw left right gmin gmax a b d := by
    unfold Pandora.windowOk
    rw [hs.1.1, hs.1.2, hs.2, hc]
    simp only [g, g', hv, hv', and_self, true_and]
    refine and_congr_right fun h1 => and_congr_right fun h2 => and_congr ?_ (and_congr_left' ?_)
    · constructor
      · intro h x hx y hy
        rw [← (hl (a + x - hw) (b + y - hw) (by omega) (by omega) (by omega) (by omega)).2]
        exact h x hx y hy
      · intro h x hx y hy
        rw [(hl (a + x - hw) (b + y - hw) (by omega) (by omega) (by omega) (by omega)).2]
        exact h x hx y hy
    · constructor
      · intro h x hx y y1 y2
        rw [← (hr h1.2.1 (a + x - hw) y (by omega) (by omega) (by omega) y1 y2).2]
        exact h x hx y y1 y2
      · intro h x hx y y1 y2
        rw [(hr h1.2.1 (a + x - hw) y (by omega) (by omega) (by omega) y1 y2).2]
        exact h x hx y y1 y2
  by_cases ok : Pandora.windowOk hw left right gmin gmax a b d
  · rw [if_pos ok, if_pos (hok.2 ok)]
    obtain ⟨⟨b1, b2, b3, b4⟩, ⟨b5, b6⟩, -⟩ := ok
    congr 1
    unfold Pandora.windowPairs
    refine List.flatMap_congr fun x hx => List.map_congr_left fun y hy => ?_
    rw [List.mem_range] at hx hy
    rw [(hl (a + x - hw) (b + y - hw) (by omega) (by omega) (by omega) (by omega)).1]
    refine Prod.ext rfl ?_
    show Pandora.sampleCol right' _ _ = Pandora.sampleCol right _ _
    have e : (b : K) + d + ((y : Nat) : K) - (hw : K) = (b : K) + d + (((y : Int) - hw : Int) : K) := by push_cast; ring
    unfold Pandora.sampleCol
    rw [e, Int.floor_add_intCast, Int.fract_add_intCast]
    have hfc := Int.floor_le_ceil ((b : K) + d)
    have s0 := (hr b2 (a + x - hw) (⌊(b : K) + d⌋ + ((y : Int) - hw)).toNat (by omega) (by omega) (by omega) (by omega) (by omega)).1
    split_ifs with hz
    · exact s0
    · have hcl : ⌈(b : K) + d⌉ = ⌊(b : K) + d⌋ + 1 := by
        rw [Int.ceil_eq_iff]
        have hz' : 0 < Int.fract ((b : K) + d) := lt_of_le_of_ne (Int.fract_nonneg _) (Ne.symm hz)
        have hlt := Int.fract_lt_one ((b : K) + d)
        have hsum := Int.floor_add_fract ((b : K) + d)
        push_cast
        constructor <;> linarith
      have s1 := (hr b2 (a + x - hw) ((⌊(b : K) + d⌋ + ((y : Int) - hw)).toNat + 1) (by omega) (by omega) (by omega) (by omega) (by omega)).1
      rw [s0, s1]
  · rw [if_neg ok, if_neg fun q => ok (hok.1 q)]

/-- C104: locality. Two successful executions on full images of the same size, without estimation nor refinement, with the same subpixel
factor and the same window cost: at each pixel the rasters share, when the intervals of this pixel are the same and the images hold the same
around it (left window, part of the right image covered by the displaced windows), the three values are the same, except that each execution
has its own invalid value. -/
theorem C104_local (w w' : World K) (user user' p0 p0' mc mc' inp inp' l r l' r' : Fields) (out out' : List (Written K)) (H W : Nat)
    (dRow dCol dRow' dCol' : Disp) (sr sc sr' sc' : Nat) (invalid invalid' : F K) (n hw : Nat) (me : Measure)
    (ker : List (F K × F K) → F K) (wf : user.wf) (wf' : user'.wf)
    (hdisk : DiskContract w H W) (hpan : PandoraContract w) (hkeeps : PandoraKeeps w.pandora) (hzoom : w.run.zoom = zoomLinear)
    (hdisk' : DiskContract w' H W) (hpan' : PandoraContract w') (hkeeps' : PandoraKeeps w'.pandora) (hzoom' : w'.run.zoom = zoomLinear)
    (same : OnTwoPairs w w' user user' p0 p0' mc mc' inp inp' l r l' r' n me (Pandora.windowCost hw ker))
    (ask : Asks w user H W dRow dCol 0 ((H : Int) - 1) 0 ((W : Int) - 1) sr sc invalid)
    (ask' : Asks w' user' H W dRow' dCol' 0 ((H : Int) - 1) 0 ((W : Int) - 1) sr' sc' invalid')
    (h : Main.main w user = (out, none)) (h' : Main.main w' user' = (out', none)) :
    ∃ files rest files' rest' left right left' right', out = .rasters files :: rest ∧ out' = .rasters files' :: rest' ∧
      ImagesRead w l r none left right ∧ ImagesRead w' l' r' none left' right' ∧
      (∀ f ∈ [files.row, files.col, files.score], (∀ i, i < f.h ↔ i * sr < H) ∧ ∀ j, j < f.w ↔ j * sc < W) ∧
      (∀ f ∈ [files'.row, files'.col, files'.score], (∀ i, i < f.h ↔ i * sr' < H) ∧ ∀ j, j < f.w ↔ j * sc' < W) ∧
      ∀ i j i' j' a b : Nat, i < files.row.h → j < files.row.w → i' < files'.row.h → j' < files'.row.w →
        a = i * sr → a = i' * sr' → b = j * sc → b = j' * sc' →
        SameIntervalAt dRow dRow' a b → SameIntervalAt dCol dCol' a b →
        SameAround hw left right left' right' a b (initAt dRow a b - dRow.range) (initAt dRow a b + dRow.range)
          (initAt dCol a b - dCol.range) (initAt dCol a b + dCol.range) →
        SamePixel invalid invalid' (files.row.values i j) (files.col.values i j) (files.score.values i j)
          (files'.row.values i' j') (files'.col.values i' j') (files'.score.values i' j') := by
  have hpd : ∀ {v : World K} {u p : Fields} {dR dC : Disp} {a b c d : Int} {x y : Nat} {iv : F K}, u.get "pipeline" = some (.obj p) →
      Asks v u H W dR dC a b c d x y iv → "disparity" ∈ p.keys := by
    intro v u p dR dC a b c d x y iv hp hk
    obtain ⟨pl, mc, disp, a1, a2, a3, -⟩ := hk.steps
    rw [hp, Option.some.injEq, J.obj.injEq] at a1
    subst a1
    exact (Fields.get_isSome _ _).1 (by rw [a3]; rfl)
  obtain ⟨hu, hu'⟩ := same.pipelines
  obtain ⟨he, he'⟩ := same.noEstimation
  obtain ⟨s⟩ := main_stages w user p0 out wf hpan hu (hpd hu ask) h
  obtain ⟨s'⟩ := main_stages w' user' p0' out' wf' hpan' hu' (hpd hu' ask') h'
  obtain ⟨hn, dRow1, dCol1, gmin, gmax, -, i1, i2, -, i4, i5, -, -, -, i6⟩ :=
    s.winner hdisk hkeeps wf hu ask.zone (by omega) same.noRefinement.1 same.costs.1 same.matcher.1
  obtain ⟨hn', dRow2, dCol2, gmin', gmax', -, i1', i2', -, i4', i5', -, -, -, i6'⟩ :=
    s'.winner hdisk' hkeeps' wf' hu' ask'.zone (by omega) same.noRefinement.2 same.costs.2 same.matcher.2
  obtain ⟨-, -, -, -, -, z, -⟩ := s.inRange hdisk wf hu ask.zone (by omega) same.noRefinement.1
  obtain ⟨-, -, -, -, -, z', -⟩ := s'.inRange hdisk' wf' hu' ask'.zone (by omega) same.noRefinement.2
  obtain ⟨j1, j2⟩ := i1 he
  obtain ⟨j1', j2'⟩ := i1' he'
  obtain ⟨⟨rfl, rfl⟩, ⟨rfl, rfl⟩, rfl⟩ := s.asked wf hu he ask j1 j2
  obtain ⟨⟨rfl, rfl⟩, ⟨rfl, rfl⟩, rfl⟩ := s'.asked wf' hu' he' ask' j1' j2'
  have hnone : ∀ {v : World K} {u p : Fields} {o : List (Written K)} (t : Stages v u p o), u.get "ROI" = none → t.roi = none := by
    intro v u p o t hR
    have r1 := t.roiFor
    cases hx : t.roi with
    | none => rfl
    | some R =>
      rw [hx] at r1
      obtain ⟨v, hv, -⟩ := r1
      rw [hR] at hv; simp at hv
  have im := s.images wf same.inputs.1 same.lefts.1 same.rights.1
  have im' := s'.images wf' same.inputs.2 same.lefts.2 same.rights.2
  rw [hnone s same.full.1] at im i2
  rw [hnone s' same.full.2] at im' i2'
  obtain ⟨f1, f2, f3, f4, -⟩ := i2
  obtain ⟨f1', f2', f3', f4', -⟩ := i2'
  have sz : s.right.img.h = H ∧ s.right.img.w = W := by
    obtain ⟨lj, rj, -, -, -, h2⟩ := im
    exact (hdisk.whole _ _ h2).2.2
  have sz' : s'.right.img.h = H ∧ s'.right.img.w = W := by
    obtain ⟨lj, rj, -, -, -, h2⟩ := im'
    exact (hdisk'.whole _ _ h2).2.2
  have size : ∀ {f : File K (F K)} {tr : Option (Affine K)} {x y : Nat}, ZoneFile f tr 0 ((H : Int) - 1) 0 ((W : Int) - 1) x y →
      (∀ i, i < f.h ↔ i * x < H) ∧ ∀ j, j < f.w ↔ j * y < W := by
    intro f tr x y hf
    refine ⟨fun i => ?_, fun j => ?_⟩
    · rw [hf.rows]
      have : (((i * x : Nat)) : Int) = (i : Int) * x := by push_cast; rfl
      omega
    · rw [hf.cols]
      have : (((j * y : Nat)) : Int) = (j : Int) * y := by push_cast; rfl
      omega
  refine ⟨s.files, _, s'.files, _, s.left.img, s.right.img, s'.left.img, s'.right.img, s.outIs, s'.outIs, im, im', fun f hf => size (z f hf),
    fun f hf => size (z' f hf), fun i j i' j' a b hi hj hi' hj' ea ea' eb eb' hr hc near => ?_⟩
  obtain ⟨⟨a0, b0, ha, hb, e1, e2⟩, key⟩ := i6 i hi j hj
  have key' := (i6' i' hi' j' hj').2
  have ia : (i : Int) * s.plan.cfg.stepRow = a := by exact_mod_cast ea.symm
  have ia' : (i' : Int) * s'.plan.cfg.stepRow = a := by exact_mod_cast ea'.symm
  have ib : (j : Int) * s.plan.cfg.stepCol = b := by exact_mod_cast eb.symm
  have ib' : (j' : Int) * s'.plan.cfg.stepCol = b := by exact_mod_cast eb'.symm
  rw [f1, ia] at e1
  rw [f2, ib] at e2
  have haH : a < s.left.img.h := by omega
  have hbW : b < s.left.img.w := by omega
  rw [ia, ib, f1, f2, zero_add, zero_add, sub_zero, sub_zero, Int.toNat_natCast, Int.toNat_natCast, hzoom] at key
  rw [ia', ib', f1', f2', zero_add, zero_add, sub_zero, sub_zero, Int.toNat_natCast, Int.toNat_natCast, hzoom'] at key'
  have g1 := i4 a haH b hbW
  have g2 := i5 a haH b hbW
  have g1' := i4' a (by omega) b (by omega)
  have g2' := i5' a (by omega) b (by omega)
  rw [f1, f2, zero_add, zero_add] at g1 g2
  rw [f1', f2', zero_add, zero_add] at g1' g2'
  obtain ⟨r1, r2⟩ := hr
  obtain ⟨c1, c2⟩ := hc
  have asked : ∀ x y : K, AskedPair dRow' dCol' n a b x y ↔ AskedPair dRow dCol n a b x y := by
    intro x y
    unfold AskedPair
    rw [r1, r2, c1, c2]
  refine best_same key (best_congr (fun x y hxy => ?_) (best_asked asked key'))
  obtain ⟨⟨kx, -, hkx, -⟩, ⟨q1, q2⟩, q3, q4⟩ := hxy
  have D := slab_displaced s.right.img n hn x ⟨kx, hkx⟩
  have D' := slab_displaced s'.right.img n hn x ⟨kx, hkx⟩
  have values : ∀ x1 y1 : Nat, x1 < s.right.img.h → a ≤ x1 + hw → x1 ≤ a + hw → y1 < s.right.img.w → ⌊(b : K) + y⌋ ≤ (y1 : Int) + hw →
      (y1 : Int) ≤ ⌈(b : K) + y⌉ + hw →
      (slabImg zoomLinear s'.right.img n x).im x1 y1 = (slabImg zoomLinear s.right.img n x).im x1 y1 := by
    intro x1 y1 k0 k1 k2 k3 k4 k5
    refine displaced_local D D' ⟨by omega, by omega⟩ near.noData k0 k3 fun q hq u1 u2 => near.searched q y1 hq k3 ?_ ?_ ?_ ?_
    · have : (x1 : Int) + (initAt dRow a b - dRow.range) ≤ ⌊(x1 : K) + x⌋ := by
        rw [Int.le_floor]; push_cast; push_cast at q1; linarith
      omega
    · have : ⌈(x1 : K) + x⌉ ≤ (x1 : Int) + (initAt dRow a b + dRow.range) := by
        rw [Int.ceil_le]; push_cast; push_cast at q2; linarith
      omega
    · have : (b : Int) + (initAt dCol a b - dCol.range) ≤ ⌊(b : K) + y⌋ := by
        rw [Int.le_floor]; push_cast; push_cast at q3; linarith
      omega
    · have : ⌈(b : K) + y⌉ ≤ (b : Int) + (initAt dCol a b + dCol.range) := by
        rw [Int.ceil_le]; push_cast; push_cast at q4; linarith
      omega
  refine window_local ⟨⟨by omega, by omega⟩, by rw [D'.size.2, D.size.2]; omega⟩ ⟨?_, ?_⟩ ⟨?_, ?_⟩ near.window near.centre ?_ D.valid D'.valid
  · rw [g1]; exact q3
  · rw [g2]; exact q4
  · rw [g1', ← sub_eq_add_neg, ← c1]; exact q3
  · rw [g2', ← c2]; exact q4
  · intro hin x1 y1 k1 k2 k3 k4 k5
    rw [D.size.2] at k3
    have v := values x1 y1 (by omega) k1 k2 k3 k4 k5
    exact ⟨v, by rw [D.flags, D'.flags, v, near.noData]⟩

/-! ## Non-vacuity -/

/-- The images of the example, where the first pixel of the right image holds `v` and its mask is `mask`. -/
noncomputable def exWorldN (v : F ℚ) (mask : Option (Nat → Nat → Int)) : World ℚ :=
  { exWorldV with files := { exWorldV.files with read := fun s roi =>
      let img := if isLeftSection s then { exLeftImg with h := 3 } else
        { exRightImg with h := 3, msk := mask, im := fun x y => if x = 0 ∧ y = 0 then v else exRightImg.im x y }
      match roi with
      | none => .ok img
      | some R => .ok (cropImg img R) } }

theorem exWorldN_contract (v : F ℚ) (mask : Option (Nat → Nat → Int)) : RunContract (exWorldN v mask) 3 3 := by
  obtain ⟨⟨d1, d2, d3, d4, d5⟩, p, k, r, a, o, i, s⟩ := exWorldV_contract
  refine ⟨⟨d1, d2, d3, ?_, ?_⟩, ⟨p.1, p.2⟩, k, ?_, fun _ _ _ _ => rfl, o, i, s⟩
  · intro v img h
    simp only [exWorldN, Except.ok.injEq] at h
    subst h
    split_ifs <;> exact ⟨rfl, rfl, rfl, rfl⟩
  · intro v R img h h1 h2 h3
    simp only [exWorldN, Except.ok.injEq] at h
    subst h
    have key : ∀ i : Img ℚ, i.h = 3 → i.w = 3 → CropOk (cropImg i R) R 3 3 := by
      intro i hi hi'
      refine ⟨h1, h2, h3, rfl, rfl, ?_, ?_⟩
      · simp only [cropImg, hi]; push_cast at *; omega
      · simp only [cropImg, hi']; push_cast at *; omega
    split_ifs
    · exact key _ rfl rfl
    · exact key _ rfl rfl
  · intro inp l r _ _ _ roi _
    cases roi with
    | none => exact ⟨_, _, rfl, rfl⟩
    | some R => exact ⟨_, _, rfl, rfl⟩

theorem exWorldN_runs (v : F ℚ) (mask : Option (Nat → Nat → Int)) :
    Main.main (exWorldN v mask) (exUserSub 1 1 (.int 1)) = ((Main.main (exWorldN v mask) (exUserSub 1 1 (.int 1))).1, none) := by
  have : (Main.main (exWorldN v mask) (exUserSub 1 1 (.int 1))).2 = none := by
    obtain ⟨m, cfg, h⟩ := accepted_ok (w := exWorldP) (user := exUserSub 1 1 (.int 1)) (by decide +kernel)
    refine (C99_runs_exactly (exWorldN v mask) _ _ _ cfg m 3 3 1 1 (exUserSub_wf _ _ _ (by simp [J.wf])) (exWorldN_contract v mask) rfl ?_ rfl
      (.inl ⟨_, _, rfl, .inl rfl, .inl rfl⟩) rfl ⟨by decide, by decide⟩ (fun _ _ _ _ => ⟨_, _, rfl⟩) h).2 ⟨.inl ⟨rfl, rfl⟩, ?_⟩
    · simp [dict, Fields.keys]
    · intro f hf
      simp [dict, Fields.get] at hf
  exact Prod.ext rfl this

theorem exWorldN_asks (v : F ℚ) (mask : Option (Nat → Nat → Int)) : Asks (exWorldN v mask) (exUserSub 1 1 (.int 1)) 3 3 ⟨.const 1, 1⟩ ⟨.const 1, 1⟩
    0 (((3 : Nat) : Int) - 1) 0 (((3 : Nat) : Int) - 1) 1 1 .nan :=
  let a := exUserSub_int 1 1
  ⟨a.disparities, a.zone, a.steps⟩

/-- The images read without ROI. -/
theorem exWorldN_images (v : F ℚ) (mask : Option (Nat → Nat → Int)) (left right : Img ℚ)
    (h : ImagesRead (exWorldN v mask) exL exR none left right) :
    left = { exLeftImg with h := 3 } ∧
    right = { exRightImg with h := 3, msk := mask, im := fun x y => if x = 0 ∧ y = 0 then v else exRightImg.im x y } := by
  obtain ⟨lj, rj, k1, k2, h1, h2⟩ := h
  have g1 := k1 "img" _ rfl rfl
  have g2 := k2 "img" _ rfl rfl
  simp only [exWorldN, Except.ok.injEq] at h1 h2
  have e1 : isLeftSection (.obj lj) = true := by simp [isLeftSection, g1, readValue]
  have e2 : isLeftSection (.obj rj) = false := by simp [isLeftSection, g2, readValue]
  rw [e1, if_pos rfl] at h1
  rw [e2, if_neg (by decide)] at h2
  exact ⟨h1.symm, h2.symm⟩

/-- The last pixel, whose disparities are not negative, does not depend on the first pixel of the right image nor on its mask. -/
example (v v' : F ℚ) (mask mask' : Option (Nat → Nat → Int)) :
    ∃ files rest files' rest', Main.main (exWorldN v mask) (exUserSub 1 1 (.int 1)) = (.rasters files :: rest, none) ∧
      Main.main (exWorldN v' mask') (exUserSub 1 1 (.int 1)) = (.rasters files' :: rest', none) ∧
      SamePixel .nan .nan (files.row.values 2 2) (files.col.values 2 2) (files.score.values 2 2)
        (files'.row.values 2 2) (files'.col.values 2 2) (files'.score.values 2 2) := by
  obtain ⟨files, rest, files', rest', left, right, left', right', o1, o2, im, im', z, z', key⟩ :=
    C104_local (exWorldN v mask) (exWorldN v' mask') (exUserSub 1 1 (.int 1)) (exUserSub 1 1 (.int 1)) _ _ (exMc 1 1) (exMc 1 1) _ _
      exL exR exL exR _ _ 3 3 _ _ _ _ 1 1 1 1 .nan .nan 1 0 .min sad (exUserSub_wf _ _ _ (by simp [J.wf])) (exUserSub_wf _ _ _ (by simp [J.wf]))
      (exWorldN_contract v mask).disk (exWorldN_contract v mask).pandora (exWorldN_contract v mask).keeps rfl
      (exWorldN_contract v' mask').disk (exWorldN_contract v' mask').pandora (exWorldN_contract v' mask').keeps rfl
      ⟨⟨rfl, rfl⟩, ⟨rfl, rfl⟩, ⟨rfl, rfl⟩, ⟨rfl, rfl⟩, ⟨rfl, rfl⟩, ⟨rfl, rfl⟩, ⟨rfl, rfl⟩, ⟨rfl, rfl⟩,
        ⟨_, _, _, _, _, .int 1, rfl, rfl, rfl, .inl rfl, rfl, rfl⟩, ⟨_, _, _, _, _, .int 1, rfl, rfl, rfl, .inl rfl, rfl, rfl⟩⟩
      (exWorldN_asks v mask) (exWorldN_asks v' mask') (exWorldN_runs v mask) (exWorldN_runs v' mask')
  obtain ⟨rfl, rfl⟩ := exWorldN_images _ _ _ _ im
  obtain ⟨rfl, rfl⟩ := exWorldN_images _ _ _ _ im'
  have r := z _ (List.mem_cons_self)
  have r' := z' _ (List.mem_cons_self)
  refine ⟨files, rest, files', rest', by rw [exWorldN_runs, o1], by rw [exWorldN_runs, o2],
    key 2 2 2 2 2 2 ((r.1 2).2 (by decide)) ((r.2 2).2 (by decide)) ((r'.1 2).2 (by decide)) ((r'.2 2).2 (by decide)) rfl rfl rfl rfl
      ⟨rfl, rfl⟩ ⟨rfl, rfl⟩ ⟨fun _ _ _ _ _ _ => ⟨rfl, rfl⟩, rfl, rfl, ?_⟩⟩
  intro x y hx hy h1 h2 h3 h4
  simp [initAt] at h1
  have : ¬ (x = 0 ∧ y = 0) := by omega
  simp [this]

end Verif.Props
