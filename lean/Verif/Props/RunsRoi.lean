import Verif.Spec.RunsRoi
import Verif.Props.RunsExactly
import Verif.Props.RoiRasters

/-!
# C105, C125: which accepted configurations run to the end, with a ROI
-/

namespace Verif.Props

open Verif Verif.Config Verif.Machine Verif.ImgTools Verif.MatchingCost Verif.Disparity Verif.Estimation Verif.Run Verif.Main Verif.Spec
  Verif.Save Verif.Statistics

set_option linter.unusedSectionVars false

variable {K : Type} [Field K] [LinearOrder K] [IsStrictOrderedRing K] [FloorRing K]

theorem dispBounds_hull {d : Disp} {lo hi : Int} (h : HullIs d lo hi) : dispBounds d = (lo, hi) := by
  obtain ⟨h1, h2, h3, h4⟩ := h
  unfold InDispRange at h1 h2 h3 h4
  unfold dispBounds
  cases hd : d.init with
  | const i =>
    rw [hd] at h1 h2 h3 h4
    simp only at h1 h2 h3 h4 ⊢
    have := h2 (i - d.range) (by omega)
    have := h4 (i + d.range) (by omega)
    rw [Prod.mk.injEq]
    omega
  | grid g =>
    rw [hd] at h1 h2 h3 h4
    simp only at h1 h2 h3 h4 ⊢
    obtain ⟨r, hr1, c, hc1, e1, e2⟩ := h1
    obtain ⟨r', hr', c', hc', e3, e4⟩ := h3
    have k1 := h2 _ ⟨r, hr1, c, hc1, le_refl _, by omega⟩
    have k2 := h4 _ ⟨r', hr', c', hc', by omega, le_refl _⟩
    rw [Prod.mk.injEq]
    constructor
    · apply minOf_unique
      · exact List.mem_map.2 ⟨_, mem_gridVals.2 ⟨r, hr1, c, hc1, rfl⟩, by omega⟩
      · intro x hx
        obtain ⟨y, hy, rfl⟩ := List.mem_map.1 hx
        obtain ⟨a, ha, b, hb, rfl⟩ := mem_gridVals.1 hy
        exact h2 _ ⟨a, ha, b, hb, le_refl _, by omega⟩
    · apply maxOf_unique
      · exact List.mem_map.2 ⟨_, mem_gridVals.2 ⟨r', hr', c', hc', rfl⟩, by omega⟩
      · intro x hx
        obtain ⟨y, hy, rfl⟩ := List.mem_map.1 hx
        obtain ⟨a, ha, b, hb, rfl⟩ := mem_gridVals.1 hy
        exact h4 _ ⟨a, ha, b, hb, by omega, le_refl _⟩

/-- The ranges read on a crop. -/
theorem crop_ranges {row0 col0 : Int} {h w : Nat} {d : Disp} {M : MinMax} (h0 : 0 ≤ row0) (h1 : 0 ≤ col0) (hh : 0 < h) (hw : 0 < w)
    (hM : getMinMax row0 col0 h w d false = .ok M) (r c : Nat) :
    M.lo.get r c = initAt d (row0 + r) (col0 + c) - d.range ∧ M.hi.get r c = initAt d (row0 + r) (col0 + c) + d.range := by
  unfold getMinMax at hM
  unfold initAt
  cases hi : d.init with
  | const i =>
    rw [hi] at hM
    simp only [Except.ok.injEq] at hM
    subst hM
    simp [sgn]
  | grid g =>
    rw [hi] at hM
    simp only at hM
    split_ifs at hM with e1 e2 e3
    simp only [Except.ok.injEq] at hM
    subst hM
    have q1 : row0 ≤ g.h := by
      by_contra hn
      apply e1
      left
      unfold sliceLen clampIdx
      rw [if_neg (by omega), if_neg (by omega)]
      omega
    have q2 : col0 ≤ g.w := by
      by_contra hn
      apply e1
      right
      unfold sliceLen clampIdx
      rw [if_neg (by omega), if_neg (by omega)]
      omega
    simp only [sgn, Bool.false_eq_true, if_false, mul_one]
    rw [sliceStart_of_nonneg h0 q1, sliceStart_of_nonneg h1 q2, show (row0 + r).toNat = row0.toNat + r by omega,
      show (col0 + c).toNat = col0.toNat + c by omega]
    exact ⟨rfl, rfl⟩

/-- The range is constant on a crop exactly when the initial disparity is the same for all its pixels. -/
theorem crop_constant {row0 col0 : Int} {h w : Nat} {d : Disp} {M : MinMax} (h0 : 0 ≤ row0) (h1 : 0 ≤ col0) (hh : 0 < h) (hw : 0 < w)
    (hM : getMinMax row0 col0 h w d false = .ok M) {rows cols : Int → Prop} (hr : ∀ x, rows x ↔ row0 ≤ x ∧ x < row0 + h)
    (hc : ∀ x, cols x ↔ col0 ≤ x ∧ x < col0 + w) : ConstantRange M h w ↔ FlatOn d rows cols := by
  have hat := crop_ranges h0 h1 hh hw hM
  obtain ⟨-, ⟨r1, l1, c1, l2, e1⟩, ⟨r2, l3, c2, l4, e2⟩⟩ := C11_source_is_tight_hull _ _ _ _ _ _ _ hh hw hM
  constructor
  · intro hk
    have all : ∀ R C, rows R → cols C → initAt d R C = M.src.1 + d.range := by
      intro R C p q
      have p := (hr R).1 p
      have q := (hc C).1 q
      have e := (hk (R - row0).toNat (by omega) (C - col0).toNat (by omega)).1
      rw [(hat _ _).1, show row0 + ((R - row0).toNat : Int) = R by omega, show col0 + ((C - col0).toNat : Int) = C by omega] at e
      omega
    intro r c r' c' p q p' q'
    rw [all r c p q, all r' c' p' q']
  · intro hk r hrr c hcc
    have at1 := hk (row0 + r) (col0 + c) (row0 + r1) (col0 + c1) ((hr _).2 (by omega)) ((hc _).2 (by omega)) ((hr _).2 (by omega))
      ((hc _).2 (by omega))
    have at2 := hk (row0 + r) (col0 + c) (row0 + r2) (col0 + c2) ((hr _).2 (by omega)) ((hc _).2 (by omega)) ((hr _).2 (by omega))
      ((hc _).2 (by omega))
    rw [← e1, ← e2, (hat r c).1, (hat r c).2, (hat r1 c1).1, (hat r2 c2).2, at1]
    rw [← at2, at1]
    exact ⟨rfl, rfl⟩

/-- The points of the cost volumes of an area read from `a`, and the condition of the optical flow on them. -/
theorem flow_axis {near : Int → Prop} {first a margin : Int} {n step half : Nat} (hs : 1 ≤ step) (hn : 1 ≤ n)
    (hnear : ∀ x, near x ↔ a ≤ x ∧ x < a + n) (hm : a + margin = first) :
    FlowAxis near first step half ↔ FlowPoints (some margin) a n step half := by
  have hs' : (0 : Int) < step := by omega
  obtain ⟨s, hsdef⟩ : ∃ s, s = startCoord (some margin) a step := ⟨_, rfl⟩
  have hse : s = a + margin % step := hsdef
  have p1 := Int.emod_nonneg margin (b := step) (by omega)
  have p2 := Int.emod_lt_of_pos margin hs'
  have hmod : (s - first) % step = 0 := by
    have : s - first = (step : Int) * (-(margin / step)) := by
      have := Int.emod_add_mul_ediv margin step
      rw [mul_neg]; omega
    rw [this]; exact Int.mul_emod_right _ _
  -- the points
  have point : ∀ y, a ≤ y → (y - first) % step = 0 → ∃ j : Nat, y = s + (j : Int) * step := by
    intro y hy h
    obtain ⟨j, hj⟩ := Int.dvd_of_emod_eq_zero h
    obtain ⟨i, hi⟩ := Int.dvd_of_emod_eq_zero hmod
    have hd : y - s = step * (j - i) := by rw [mul_sub]; omega
    have : 0 ≤ j - i := by
      by_contra hneg
      have : (step : Int) * (j - i) ≤ step * (-1) := Int.mul_le_mul_of_nonneg_left (by omega) (by omega)
      omega
    refine ⟨(j - i).toNat, ?_⟩
    rw [Int.toNat_of_nonneg this, mul_comm]
    omega
  have pmod : ∀ j : Nat, (s + (j : Int) * step - first) % step = 0 := by
    intro j
    rw [show s + (j : Int) * step - first = s - first + j * step by ring, Int.add_mul_emod_self_right]
    exact hmod
  unfold FlowAxis FlowPoints
  rw [← hsdef]
  set A := arangeA s (a + n) step with hA
  have hmem : ∀ k, k < A.n ↔ s + (k : Int) * step < a + n := fun k => arangeA_mem hs
  have hg : ∀ k, A.get k = s + (k : Int) * step := fun k => rfl
  have hcount : ∀ k, k < (n + step - 1) / step ↔ a + (k : Int) * step < a + n := by
    intro k
    rw [← arange_count a n step hs]
    exact arangeA_mem hs
  refine and_congr ?_ ?_
  · constructor
    · rintro ⟨x, h1, h2, ⟨k, h3, h4⟩, l, h5, h6⟩
      obtain ⟨j, rfl⟩ := point x ((hnear x).1 h2).1 h1
      have hj : j < A.n := (hmem j).2 ((hnear _).1 h2).2
      refine ⟨j, (inner_point (m := some margin) hs (by rw [← hsdef]) hj).2 ⟨⟨k, h3, ?_⟩, l, h5, ?_⟩⟩
      · rw [hg]; exact ((hnear _).1 h4).1
      · rw [hg]; exact ((hnear _).1 h6).2
    · rintro ⟨j, hj⟩
      obtain ⟨⟨k, h3, h4⟩, l, h5, h6⟩ := (inner_point (m := some margin) hs (by rw [← hsdef]) hj.1).1 hj
      rw [hg] at h4 h6
      have q := (hmem j).1 hj.1
      have z1 : (0 : Int) ≤ (k : Int) * step := by positivity
      have z2 : (0 : Int) ≤ (l : Int) * step := by positivity
      exact ⟨s + (j : Int) * step, pmod j, (hnear _).2 (by omega), ⟨k, h3, (hnear _).2 (by omega)⟩, l, h5, (hnear _).2 (by omega)⟩
  · constructor
    · intro h
      have h := h a ((hnear a).2 (by omega)) (fun x hx => ((hnear x).1 hx).1)
      have : ∀ k, k < A.n ↔ k < (n + step - 1) / step := by
        intro k
        rw [hmem, hcount]
        constructor
        · intro q; omega
        · intro q
          have z : (0 : Int) ≤ (k : Int) * step := by positivity
          obtain ⟨y, y1, y2, y3, y4⟩ := h k ((hnear _).2 (by omega))
          obtain ⟨j, rfl⟩ := point y (by omega) y2
          have hjk : j = k := by
            by_contra hne
            rcases Nat.lt_or_gt_of_ne hne with hlt | hgt
            · have : ((j : Int) + 1) * step ≤ (k : Int) * step := Int.mul_le_mul_of_nonneg_right (by omega) (by omega)
              rw [add_mul] at this; omega
            · have : ((k : Int) + 1) * step ≤ (j : Int) * step := Int.mul_le_mul_of_nonneg_right (by omega) (by omega)
              rw [add_mul] at this; omega
          subst hjk
          exact ((hnear _).1 y1).2
      exact le_antisymm (Nat.le_of_not_lt fun hlt => by have := (this _).1 hlt; omega)
        (Nat.le_of_not_lt fun hlt => by have := (this _).2 hlt; omega)
    · intro h b hb hlow k hk
      have : b = a := by
        have := hlow a ((hnear a).2 (by omega))
        have := ((hnear b).1 hb).1
        omega
      subst this
      have := ((hnear _).1 hk).2
      have z : (0 : Int) ≤ (k : Int) * step := by positivity
      have := (hmem k).1 (by rw [h]; exact (hcount k).2 this)
      exact ⟨s + (k : Int) * step, (hnear _).2 (by omega), pmod k, by omega, by omega⟩

section
variable {w : World K} {m : Mach (Machine.Attrs J Margins)} {H W : Nat} {rf rl cf cl : Int} {dRow dCol : Disp} {lor hir loc hic : Int}

/-- The rows and columns read for a ROI. -/
theorem zone_near {img : Img K} {R : Roi} (hz : ZoneOk img (some R) H W rf rl cf cl) (hm : RegionMade w m (some R) dRow dCol)
    (l1 : HullIs dRow lor hir) (l2 : HullIs dCol loc hic) :
    (∀ x, NearRoi H rf rl lor hir (w.globalMargins m.data.cumulative m.data.nonCumulative).up
        (w.globalMargins m.data.cumulative m.data.nonCumulative).down x ↔ img.row0 ≤ x ∧ x < img.row0 + img.h) ∧
    (∀ x, NearRoi W cf cl loc hic (w.globalMargins m.data.cumulative m.data.nonCumulative).left
        (w.globalMargins m.data.cumulative m.data.nonCumulative).right x ↔ img.col0 ≤ x ∧ x < img.col0 + img.w) := by
  obtain ⟨hcr, rfl, rfl, rfl, rfl⟩ := hz
  obtain ⟨R0, q1, q2⟩ := hm R rfl
  have hM : R.margins = ⟨max |loc| R0.margins.left, max |lor| R0.margins.up, max |hic| R0.margins.right, max |hir| R0.margins.down⟩ := by
    unfold getRoiProcessing at q2
    rw [dispBounds_hull l1, dispBounds_hull l2] at q2
    cases h1 : dCol.init <;> cases h2 : dRow.init <;> rw [h1, h2] at q2 <;>
      simp only [Except.ok.injEq, Prod.mk.injEq, reduceCtorEq] at q2 <;> rw [← q2.1]
  rw [← q1]
  have a1 : R.margins.left = max |loc| R0.margins.left := by rw [hM]
  have a2 : R.margins.up = max |lor| R0.margins.up := by rw [hM]
  have a3 : R.margins.right = max |hic| R0.margins.right := by rw [hM]
  have a4 : R.margins.down = max |hir| R0.margins.down := by rw [hM]
  have b1 := hcr.row0
  have b2 := hcr.col0
  have b3 := hcr.row1
  have b4 := hcr.col1
  unfold NearRoi
  rw [← a1, ← a2, ← a3, ← a4]
  constructor <;> intro x <;> omega

/-- The first pixel of the ROI is a margin after the first pixel read. -/
theorem zone_margin {img : Img K} {R : Roi} (hz : ZoneOk img (some R) H W rf rl cf cl) :
    (∃ a, rowMargin (some R) = some a ∧ img.row0 + a = rf) ∧ ∃ a, colMargin (some R) = some a ∧ img.col0 + a = cf := by
  obtain ⟨hcr, rfl, rfl, rfl, rfl⟩ := hz
  have b1 := hcr.row0
  have b2 := hcr.col0
  have b3 := hcr.rows
  have b4 := hcr.cols
  have b5 := hcr.margins
  exact ⟨⟨min R.margins.up R.rowFirst, rfl, by omega⟩, min R.margins.left R.colFirst, rfl, by omega⟩

/-- What an execution with a ROI needs from its refinement. -/
theorem Stages.needs {user p0 mc : Fields} {out : List (Written K)} {sr sc : Nat} {v : J} {R : Roi} (s : Stages w user p0 out)
    (hw : user.wf) (hc : RunContract w H W) (hu : user.get "pipeline" = some (.obj p0)) (hmc : p0.get "matching_cost" = some (.obj mc))
    (hst : StepIs mc sr sc) (hR : user.get "ROI" = some v) (hv : RoiIs v rf rl cf cl) (hne : rf < rl ∧ rl < H ∧ cf < cl ∧ cl < W)
    (hRs : s.roi = some R) (hmade : RegionMade w s.m (some R) dRow dCol) (l1 : HullIs dRow lor hir) (l2 : HullIs dCol loc hic) (f : Fields)
    (href : p0.get "refinement" = some (.obj f)) : (f.get "refinement_method" = some (.str "dichotomy") → sr = 1 ∧ sc = 1) ∧
      (f.get "refinement_method" = some (.str "optical_flow") → ∃ half, HalfWindowIs w mc half ∧
        FlowAxis (NearRoi H rf rl lor hir (w.globalMargins s.m.data.cumulative s.m.data.nonCumulative).up
          (w.globalMargins s.m.data.cumulative s.m.data.nonCumulative).down) rf sr half ∧
        FlowAxis (NearRoi W cf cl loc hic (w.globalMargins s.m.data.cumulative s.m.data.nonCumulative).left
          (w.globalMargins s.m.data.cumulative s.m.data.nonCumulative).right) cf sc half) := by
  have hz : ZoneIs user H W rf rl cf cl := .inl ⟨v, hR, hv⟩
  obtain ⟨hin, hzone⟩ := s.zone hc.disk hz ⟨hne.2.1, hne.2.2.2⟩
  obtain ⟨t1, t2, ⟨t3, -⟩, t4, -⟩ := zone_size hzone hne
  obtain ⟨dRow', dCol', L, cv, o, mp, e1, e2, e3, e4, e5, e6, hp, r2, r3, r4, hmaps, e7, e8, e9⟩ := s.volumes hc.disk hin hw hu
  obtain ⟨b1, b2, b3, b4⟩ := s.reads.steps
  obtain ⟨-, -, -, -, hg⟩ := pipeline_new w.steps user p0 s.pl s.m hw hu s.pipeline
  have hpw : p0.wf := Fields.wf_get user hw hu
  rw [hRs] at hzone
  -- the matching cost
  obtain ⟨cm, vm', hm1, -, hm2, hm3⟩ := hg _ _ hmc
  obtain ⟨me', k, cost, hbm, -⟩ := mc_rebuilt hc.keeps hm1 hm2 hst
  obtain ⟨vb, hvb, hvb'⟩ := s.reads.built
  rw [hm3, Option.some.injEq] at hvb
  subst hvb
  rw [hbm, Except.ok.injEq, StepCfg.matchingCost.injEq] at hvb'
  obtain ⟨hcfg, hoff, -⟩ := hvb'
  have hsr : s.plan.cfg.stepRow = sr := by rw [← hcfg]
  have hsc : s.plan.cfg.stepCol = sc := by rw [← hcfg]
  have hLh : 2 ≤ L.img.h := by rw [e2]; exact t1
  have hLw : 2 ≤ L.img.w := by rw [e2]; exact t2
  obtain ⟨n1, n2⟩ := zone_near hzone hmade l1 l2
  refine ⟨fun hm => ?_, fun hm => ?_⟩
  · -- the dichotomy
    obtain ⟨vm, cm', st, wn, mar, c', -, -, -, -, k5, k6⟩ := checked_with hw hu s.pipeline href
    obtain ⟨c, v', h1, h2, h3, h4⟩ := hg _ _ href
    rw [h2, Option.some.injEq, Prod.mk.injEq] at k6
    obtain ⟨-, rfl⟩ := k6
    obtain ⟨it, flt, q1, q2, q3, q4⟩ := dicho_rebuilt (a := s.m.data) (Fields.wf_get p0 hpw href) hm k5 h3
    obtain ⟨v'', c', w1, w2, w3⟩ := s.reads.refinement _ href
    rw [h4, Option.some.injEq] at w1
    subst w1
    rw [q2, Except.ok.injEq] at w2
    subst w2
    rw [refinement_margins hw hu s.pipeline h2] at r2
    rw [w3] at r4
    simp only [List.map_cons, List.map_nil, refinedAll, refined] at r4
    obtain ⟨o', y1, y2⟩ := bind_eq_ok r4
    obtain ⟨x, z1, z2⟩ := bind_eq_ok y1
    have hx : Dichotomy.refinementMethod flt it cv s.plan.invalid o.row o.col (gridsOf L) = .ok x := z1
    by_contra hcon
    have hcon' : (2 ≤ s.plan.cfg.stepRow ∧ 2 ≤ L.img.h) ∨ (2 ≤ s.plan.cfg.stepCol ∧ 2 ≤ L.img.w) := by omega
    obtain ⟨e, he⟩ := C61_dichotomy_raises_with_step (f := flt) (it := it) (invalid := s.plan.invalid) hp b3 b1 r2 hcon' o.row o.col
    rw [hx] at he
    simp at he
  · -- the optical flow
    obtain ⟨vm, cm', st, wn, mar, c', k1, k2, k3, k4, k5, k6⟩ := checked_with hw hu s.pipeline href
    rw [hmc, Option.some.injEq] at k1
    subst k1
    obtain ⟨c, v', h1, h2, h3, h4⟩ := hg _ _ href
    rw [h2, Option.some.injEq, Prod.mk.injEq] at k6
    obtain ⟨-, rfl⟩ := k6
    obtain ⟨half, it, q1, q2, q3, q4⟩ := flow_rebuilt (Fields.wf_get p0 hpw href) hm k3 k4 (mc_values k2).1 k5 h3
    have hcm : cm' = cm := by
      simp only [Checked, String.reduceEq, false_and, true_and, false_or, or_false] at hm1
      obtain ⟨_, _, _, hm1⟩ := hm1
      have hm1 : matchingCostCheck w.pandora (J.obj mc).convAll = .ok (cm, _, _, _) := hm1
      rw [k2, Except.ok.injEq, Prod.mk.injEq] at hm1
      exact hm1.1
    have hoffset : s.plan.offset = half := by
      obtain ⟨-, g, hg1, hg2⟩ := mc_values k2
      rw [← hoff, ← hcm, hg1, hc.offset g wn _ hg2 q2]
      omega
    obtain ⟨v'', c', w1, w2, w3⟩ := s.reads.refinement _ href
    rw [h4, Option.some.injEq] at w1
    subst w1
    rw [q3, Except.ok.injEq] at w2
    subst w2
    rw [w3] at r4
    simp only [List.map_cons, List.map_nil, refinedAll, refined] at r4
    obtain ⟨o', y1, y2⟩ := bind_eq_ok r4
    obtain ⟨x, z1, z2⟩ := bind_eq_ok y1
    rw [hoffset] at z1
    have hx : OpticalFlow.refinementMethod w.run.flow w.run.junk ⟨2 * half + 1, it⟩ (coordsOf cv s.plan.cfg half) s.plan.invalid o.row
      o.col L.img s.right.img L.rowDisp L.colDisp = .ok x := z1
    have S := flow_setting hp b3 b1 b2 r2 r3 half it q1
    have hinner : (∃ k, InnerIdx cv.row half k) ∧ ∃ k, InnerIdx cv.col half k := by
      by_contra hv
      obtain ⟨e, he⟩ := C50_small_raises (e := w.run.flow) (junk := w.run.junk) (invalid := s.plan.invalid) (right := s.right.img)
        (rowDisp := L.rowDisp) (colDisp := L.colDisp) S (by
          show (¬ ∃ k, InnerIdx cv.row half k) ∨ ¬ ∃ k, InnerIdx cv.col half k
          tauto)
      rw [hx] at he
      simp at he
    obtain ⟨g1, g2⟩ := flow_grid_shape (oc := x.1) (orr := x.2) hx
    obtain ⟨⟨m1, m2⟩, -⟩ := maps_shape r3
    obtain ⟨q5, q6, -, -⟩ := hp.col.shape
    rw [m1, q5] at g1
    rw [m2, q6] at g2
    obtain ⟨x1, x2, -⟩ := compute_char hp b3 b1 r2
    rw [rowCoords_eq] at x1
    rw [colCoords_eq] at x2
    obtain ⟨⟨ar, am, ae⟩, ac, bm, be⟩ := zone_margin hzone
    rw [hRs, am] at x1
    rw [hRs, bm] at x2
    rw [← e2] at n1 n2 ae be
    refine ⟨half, ⟨_, _, _, _, k2, q2⟩, ?_, ?_⟩
    · refine (flow_axis (by rw [← hsr]; exact b1) (by omega) n1 ae).2 ⟨?_, ?_⟩
      · rw [← hsr, ← x1]; exact hinner.1
      · rw [← hsr, ← x1]; exact g1.symm
    · refine (flow_axis (by rw [← hsc]; exact b2) (by omega) n2 be).2 ⟨?_, ?_⟩
      · rw [← hsc, ← x2]; exact hinner.2
      · rw [← hsc, ← x2]; exact g2.symm

end

/-- C125: for every accepted configuration with a disparity step, a ROI of at least two rows and columns inside the image and no estimation,
in every world where the images accepted by the check can be read: `main` ends without exception if and only if the steps are
one, or the initial disparities are each the same for all the pixels which are read, a dichotomy has steps of one, and for an optical
flow, on each axis, some point of the maps has others at least half a window away on each side and each group of `step` pixels read holds a
point of the maps. The pixels read are
those of the image at most `max |lo| g` before the first pixel of the ROI and at most `max |hi| g'` after its last one, in each direction,
where `lo` and `hi` are the extreme disparities asked over the whole image and `g` and `g'` the margins recorded for the pipeline. -/
theorem C125_runs_exactly_roi (w : World K) (user p0 mc cfg ui : Fields) (v : J) (m : Mach (Machine.Attrs J Margins)) (H W : Nat)
    (rf rl cf cl : Int) (sr sc : Nat) (dRow dCol : Disp) (lor hir loc hic : Int) (g : RoiMargins)
    (hw : user.wf) (hc : RunContract w H W) (hu : user.get "pipeline" = some (.obj p0)) (hd : "disparity" ∈ p0.keys)
    (hmc : p0.get "matching_cost" = some (.obj mc)) (hst : StepIs mc sr sc) (hR : user.get "ROI" = some v) (hv : RoiIs v rf rl cf cl)
    (hne : rf < rl ∧ rl < H ∧ cf < cl ∧ cl < W) (he : p0.get "estimation" = none)
    (hui : user.get "input" = some (.obj ui)) (h1 : IsDisp w.files ui "row_disparity" dRow) (h2 : IsDisp w.files ui "col_disparity" dCol)
    (l1 : HullIs dRow lor hir) (l2 : HullIs dCol loc hic) (h : Config.checkConf w.env w.steps user (fresh .init) = (m, .ok cfg))
    (hg : g = w.globalMargins m.data.cumulative m.data.nonCumulative) :
    (Main.main w user).2 = none ↔
      ((sr = 1 ∧ sc = 1) ∨
        (FlatOn dRow (NearRoi H rf rl lor hir g.up g.down) (NearRoi W cf cl loc hic g.left g.right) ∧
          FlatOn dCol (NearRoi H rf rl lor hir g.up g.down) (NearRoi W cf cl loc hic g.left g.right))) ∧
      ∀ f, p0.get "refinement" = some (.obj f) → (f.get "refinement_method" = some (.str "dichotomy") → sr = 1 ∧ sc = 1) ∧
        (f.get "refinement_method" = some (.str "optical_flow") →
          ∃ half, HalfWindowIs w mc half ∧ FlowAxis (NearRoi H rf rl lor hir g.up g.down) rf sr half ∧
            FlowAxis (NearRoi W cf cl loc hic g.left g.right) cf sc half) := by
  subst hg
  have hz : ZoneIs user H W rf rl cf cl := .inl ⟨v, hR, hv⟩
  obtain ⟨p0', cin, pl', c1, c2, c3, -, -, -, -, -⟩ := checkConf_gets w.env w.steps user cfg _ m hw h
  rw [hu, Option.some.injEq, J.obj.injEq] at c1
  subst c1
  have hge : givesEstimation p0 = false := by unfold givesEstimation; rw [he]
  constructor
  · intro hrun
    obtain ⟨s⟩ := main_stages w user p0 (Main.main w user).1 hw hc.pandora hu hd (Prod.ext rfl hrun)
    have hsm : s.m = m := by
      have := s.checkedAll
      rw [h, Prod.mk.injEq] at this
      exact this.1.symm
    obtain ⟨hin, hzone⟩ := s.zone hc.disk hz ⟨hne.2.1, hne.2.2.2⟩
    obtain ⟨t1, t2, ⟨t3, -⟩, t4, -⟩ := zone_size hzone hne
    obtain ⟨dRow', dCol', L, cv, o, mp, e1, e2, e3, e4, e5, e6, hp, r2, r3, r4, hmaps, e7, e8, e9⟩ := s.volumes hc.disk hin hw hu
    obtain ⟨b1, b2, b3, b4⟩ := s.reads.steps
    obtain ⟨-, -, -, -, hg⟩ := pipeline_new w.steps user p0 s.pl s.m hw hu s.pipeline
    have hpw : p0.wf := Fields.wf_get user hw hu
    obtain ⟨i1, i2⟩ := e8 he
    have hin' := s.input
    rw [hge] at hin'
    obtain ⟨ui', y1, y2, y3⟩ := input_given hw hin' s.inputIs (by rw [hui]; rfl)
    rw [hui, Option.some.injEq, J.obj.injEq] at y1
    subst y1
    have q1 := isDisp_checked y2 (y3 _ (by decide) (by decide)) h1 i1
    have q2 := isDisp_checked y2 (y3 _ (by decide) (by decide)) h2 i2
    subst q1 q2
    obtain ⟨R, hRs⟩ : ∃ R, s.roi = some R := by
      have hf := s.roiFor
      cases hr : s.roi with
      | none => rw [hr] at hf; rw [show user.get "ROI" = none from hf] at hR; simp at hR
      | some r => exact ⟨r, rfl⟩
    have hmade : RegionMade w m (some R) dRow dCol := by
      intro R' hR'
      have := s.region (hRs.trans hR') i1 i2
      rw [hsm] at this
      exact this
    rw [hRs] at hzone
    -- the matching cost
    obtain ⟨cm, vm', hm1, -, hm2, hm3⟩ := hg _ _ hmc
    obtain ⟨me', k, cost, hbm, -⟩ := mc_rebuilt hc.keeps hm1 hm2 hst
    obtain ⟨vb, hvb, hvb'⟩ := s.reads.built
    rw [hm3, Option.some.injEq] at hvb
    subst hvb
    rw [hbm, Except.ok.injEq, StepCfg.matchingCost.injEq] at hvb'
    obtain ⟨hcfg, hoff, -⟩ := hvb'
    have hsr : s.plan.cfg.stepRow = sr := by rw [← hcfg]
    have hsc : s.plan.cfg.stepCol = sc := by rw [← hcfg]
    have hLh : 2 ≤ L.img.h := by rw [e2]; exact t1
    have hLw : 2 ≤ L.img.w := by rw [e2]; exact t2
    obtain ⟨n1, n2⟩ := zone_near hzone hmade l1 l2
    refine ⟨?_, ?_⟩
    · by_cases hone : sr = 1 ∧ sc = 1
      · exact .inl hone
      · have hst' : (2 ≤ s.plan.cfg.stepRow ∧ 2 ≤ L.img.h) ∨ (2 ≤ s.plan.cfg.stepCol ∧ 2 ≤ L.img.w) := by omega
        have hcst : ConstantRange L.rowDisp L.img.h L.img.w ∧ ConstantRange L.colDisp L.img.h L.img.w := by
          by_contra hv
          have := C09_variable_ranges_with_step_raise (z := w.run.zoom) (pc := s.plan.cost) (roi := s.roi)
            (margins := refinementMargins s.m.data) hp (uniform_of_config _ _ _ _ _ _ e5) (uniform_of_config _ _ _ _ _ _ e6) b3 b1 hst'
            (by tauto)
          rw [r2] at this
          simp at this
        rw [← e2] at n1 n2 t3 t4
        exact .inr ⟨(crop_constant t3 t4 (by omega) (by omega) e5 n1 n2).1 hcst.1,
          (crop_constant t3 t4 (by omega) (by omega) e6 n1 n2).1 hcst.2⟩
    · have hn := s.needs hw hc hu hmc hst hR hv hne hRs (by rw [hsm]; exact hmade) l1 l2
      rw [hsm] at hn
      exact hn
  · rintro ⟨hr, hf⟩
    refine accepted_runs_fits w user p0 mc cfg m H W rf rl cf cl sr sc hw hc hu hd hmc hst hz hne (fun e => absurd he e) ?_ ?_ h
    · intro x hx
      obtain ⟨f, rfl, hm⟩ := refinement_methods hw hu c3 hx
      refine ⟨f, rfl, ?_⟩
      rcases hm with hm | hm | hm
      · exact .inr (.inl ⟨hm, (hf f hx).1 hm⟩)
      · obtain ⟨half, hh, f1, f2⟩ := (hf f hx).2 hm
        refine .inr (.inr ⟨hm, ?_⟩)
        intro c st wn mar half' g1 g2 p1 p2 roi img hrf hzo hin _
        obtain rfl := half_unique hh ⟨_, _, _, _, g1, g2⟩
        obtain ⟨cin', inp, d1, d2, k1, k2, i1, i2, hmade⟩ := hin he
        obtain ⟨ui', y1, y2, y3⟩ := input_given hw k1 k2 (by rw [hui]; rfl)
        rw [hui, Option.some.injEq, J.obj.injEq] at y1
        subst y1
        have q1 := isDisp_checked y2 (y3 _ (by decide) (by decide)) h1 i1
        have q2 := isDisp_checked y2 (y3 _ (by decide) (by decide)) h2 i2
        subst q1 q2
        obtain ⟨t1, t2, -⟩ := zone_size hzo hne
        cases roi with
        | none => rw [show user.get "ROI" = none from hrf] at hR; simp at hR
        | some R =>
          obtain ⟨n1, n2⟩ := zone_near hzo hmade l1 l2
          obtain ⟨⟨ar, am, ae⟩, ac, bm, be⟩ := zone_margin hzo
          rw [am, bm]
          exact ⟨(flow_axis p1 (by omega) n1 ae).1 f1, (flow_axis p2 (by omega) n2 be).1 f2⟩
      · exact .inl hm
    · rcases hr with hr | ⟨f1, f2⟩
      · exact .inl hr
      · refine .inr (.inr ?_)
        intro cin inp roi img d1 d2 Rr Cc c2 hinp hrf hzo i1 i2 hmade g1 g2
        obtain ⟨ui', y1, y2, y3⟩ := input_given hw c2 hinp (by rw [hui]; rfl)
        rw [hui, Option.some.injEq, J.obj.injEq] at y1
        subst y1
        have q1 := isDisp_checked y2 (y3 _ (by decide) (by decide)) h1 i1
        have q2 := isDisp_checked y2 (y3 _ (by decide) (by decide)) h2 i2
        subst q1 q2
        obtain ⟨t1, t2, ⟨t3, -⟩, t4, -⟩ := zone_size hzo hne
        cases roi with
        | none => rw [show user.get "ROI" = none from hrf] at hR; simp at hR
        | some R =>
          obtain ⟨n1, n2⟩ := zone_near hzo hmade l1 l2
          exact ⟨(crop_constant t3 t4 (by omega) (by omega) g1 n1 n2).2 f1, (crop_constant t3 t4 (by omega) (by omega) g2 n1 n2).2 f2⟩

/-- C105: for every accepted configuration with a disparity step, a ROI of at least two rows and columns inside the image, no estimation and
no optical flow, in every world where the images accepted by the check can be read: `main` ends without exception if and only if the steps are
one, or the initial disparities are each the same for all the pixels which are read, and a dichotomy has steps of one. The pixels read are
those of the image at most `max |lo| g` before the first pixel of the ROI and at most `max |hi| g'` after its last one, in each direction,
where `lo` and `hi` are the extreme disparities asked over the whole image and `g` and `g'` the margins recorded for the pipeline. -/
theorem C105_runs_exactly_roi (w : World K) (user p0 mc cfg ui : Fields) (v : J) (m : Mach (Machine.Attrs J Margins)) (H W : Nat)
    (rf rl cf cl : Int) (sr sc : Nat) (dRow dCol : Disp) (lor hir loc hic : Int) (g : RoiMargins)
    (hw : user.wf) (hc : RunContract w H W) (hu : user.get "pipeline" = some (.obj p0)) (hd : "disparity" ∈ p0.keys)
    (hmc : p0.get "matching_cost" = some (.obj mc)) (hst : StepIs mc sr sc) (hR : user.get "ROI" = some v) (hv : RoiIs v rf rl cf cl)
    (hne : rf < rl ∧ rl < H ∧ cf < cl ∧ cl < W) (he : p0.get "estimation" = none)
    (hnf : ∀ f, p0.get "refinement" = some (.obj f) → f.get "refinement_method" ≠ some (.str "optical_flow"))
    (hui : user.get "input" = some (.obj ui)) (h1 : IsDisp w.files ui "row_disparity" dRow) (h2 : IsDisp w.files ui "col_disparity" dCol)
    (l1 : HullIs dRow lor hir) (l2 : HullIs dCol loc hic) (h : Config.checkConf w.env w.steps user (fresh .init) = (m, .ok cfg))
    (hg : g = w.globalMargins m.data.cumulative m.data.nonCumulative) :
    (Main.main w user).2 = none ↔
      ((sr = 1 ∧ sc = 1) ∨
        (FlatOn dRow (NearRoi H rf rl lor hir g.up g.down) (NearRoi W cf cl loc hic g.left g.right) ∧
          FlatOn dCol (NearRoi H rf rl lor hir g.up g.down) (NearRoi W cf cl loc hic g.left g.right))) ∧
      ∀ f, p0.get "refinement" = some (.obj f) → f.get "refinement_method" = some (.str "dichotomy") → sr = 1 ∧ sc = 1 := by
  rw [C125_runs_exactly_roi w user p0 mc cfg ui v m H W rf rl cf cl sr sc dRow dCol lor hir loc hic g hw hc hu hd hmc hst hR hv hne he hui h1 h2
    l1 l2 h hg]
  exact and_congr_right fun _ => ⟨fun q f hf => (q f hf).1, fun q f hf => ⟨q f hf, fun e => absurd e (hnf f hf)⟩⟩

/-- The rows `a` to `b` of the image, with grids of disparities which are 1 on the rows 0 to 2 and 0 on the others. -/
def exUserBand (a b : Int) (sr sc : Int) : Fields := dict [
  ("input", exInput (some (.str "grid.tif"))),
  ("ROI", .obj (dict [("row", .obj (dict [("first", .int a), ("last", .int b)])), ("col", .obj (dict [("first", .int 0), ("last", .int 2)]))])),
  ("pipeline", .obj (exPipeline none sr sc none))]

/-- The disparities of the examples: 1 on the rows 0 to 2, 0 on the others, with a range of 1. -/
def exBand : Disp := ⟨.grid ((exWorldOf 0 9).files.grid "grid.tif"), 1⟩

theorem exBand_hull : HullIs exBand (-1) 2 := by
  have val : ∀ r c, ((exWorldOf 0 9).files.grid "grid.tif").get r c = if r < 3 then 1 else 0 := fun _ _ => rfl
  refine ⟨⟨3, by decide, 0, by decide, by decide⟩, ?_, ⟨0, by decide, 0, by decide, by decide⟩, ?_⟩
  · rintro δ ⟨r, -, c, -, h1, -⟩
    rw [val] at h1
    simp only [exBand] at h1
    split_ifs at h1 <;> omega
  · rintro δ ⟨r, -, c, -, -, h1⟩
    rw [val] at h1
    simp only [exBand] at h1
    split_ifs at h1 <;> omega

/-- The configurations of the examples meet the hypotheses of C105. -/
theorem exBand_exactly (a b : Int) (hab : a < b ∧ b < 9) (sr sc : Nat) (ha : accepted (exWorldOf 0 9) (exUserBand a b sr sc) = true) :
    (Main.main (exWorldOf 0 9) (exUserBand a b sr sc)).2 = none ↔
      ((sr = 1 ∧ sc = 1) ∨ (FlatOn exBand (NearRoi 9 a b (-1) 2 0 0) (NearRoi 3 0 2 (-1) 2 0 0) ∧
        FlatOn exBand (NearRoi 9 a b (-1) 2 0 0) (NearRoi 3 0 2 (-1) 2 0 0))) ∧
      ∀ f, (exPipeline none sr sc none).get "refinement" = some (.obj f) → f.get "refinement_method" = some (.str "dichotomy") →
        sr = 1 ∧ sc = 1 := by
  obtain ⟨m, cfg, h⟩ := accepted_ok ha
  exact C105_runs_exactly_roi (exWorldOf 0 9) (exUserBand a b sr sc) (exPipeline none sr sc none) _ cfg _ _ m 9 3 a b 0 2 sr sc exBand exBand
    (-1) 2 (-1) 2 ⟨0, 0, 0, 0⟩
    (by simp [exUserBand, exInput, exPipeline, dict, Fields.append, Fields.wf, J.wf, Fields.keys]) (exWorldOf_contract 0 9 (by decide)) rfl
    (by simp [exPipeline, dict, Fields.append, Fields.keys]) rfl (.inl ⟨_, _, rfl, .inl rfl, .inl rfl⟩) rfl
    ⟨_, _, _, _, _, _, _, rfl, rfl, rfl, rfl, rfl, rfl, rfl, .inl rfl, .inl rfl, .inl rfl, .inl rfl⟩
    ⟨hab.1, hab.2, by decide⟩ rfl (fun f hf => by simp [exPipeline, dict, Fields.append, Fields.get] at hf) rfl
    ⟨_, _, _, rfl, rfl, rfl, .inl rfl, .inr ⟨_, rfl, rfl⟩⟩ ⟨_, _, _, rfl, rfl, rfl, .inl rfl, .inr ⟨_, rfl, rfl⟩⟩ exBand_hull exBand_hull h rfl

/-- The rows 4 and 5 run with a step of two rows although the grids vary on the image: the pixels read are on the rows 3 to 7, where they do
not. -/
example : (Main.main (exWorldOf 0 9) (exUserBand 4 5 2 1)).2 = none := by
  have flat : FlatOn exBand (NearRoi 9 4 5 (-1) 2 0 0) (NearRoi 3 0 2 (-1) 2 0 0) := by
    rintro r c r' c' ⟨h1, h2, h3, h4⟩ - ⟨h1', h2', h3', h4'⟩ -
    norm_num at h3 h4 h3' h4'
    simp only [initAt, exBand, exWorldOf]
    rw [if_neg (by omega), if_neg (by omega)]
  exact (exBand_exactly 4 5 (by decide) 2 1 (by decide +kernel)).2
    ⟨.inr ⟨flat, flat⟩, fun f hf => by simp [exPipeline, dict, Fields.append, Fields.get] at hf⟩

/-- The rows 3 and 4 do not run, although the grids do not vary on them: the row 2 is read too. -/
example : (Main.main (exWorldOf 0 9) (exUserBand 3 4 2 1)).2 ≠ none := by
  intro hrun
  obtain ⟨h, -⟩ := (exBand_exactly 3 4 (by decide) 2 1 (by decide +kernel)).1 hrun
  rcases h with h | ⟨h, -⟩
  · omega
  · have := h 2 0 3 0 (by unfold NearRoi; decide) (by unfold NearRoi; decide) (by unfold NearRoi; decide) (by unfold NearRoi; decide)
    revert this
    decide

end Verif.Props
