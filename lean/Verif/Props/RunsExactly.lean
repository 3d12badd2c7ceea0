import Verif.Spec.RunsExactly
import Verif.Props.FlowMain
import Verif.Props.AcceptedExample

/-!
# C99: which accepted configurations run to the end, on full images
-/

namespace Verif.Props

open Verif Verif.Config Verif.Machine Verif.ImgTools Verif.MatchingCost Verif.Disparity Verif.Estimation Verif.Run Verif.Main Verif.Spec
  Verif.Save Verif.Statistics

set_option linter.unusedSectionVars false

variable {K : Type} [Field K] [LinearOrder K] [IsStrictOrderedRing K] [FloorRing K]

/-- The disparity of a checked section is the one of the user. -/
theorem isDisp_user {files : Datasets.Files K} {uf cf : Fields} {key : String} {d : Disp}
    (hk : cf.get key = (uf.get key).map J.convAll) (hc : IsDisp files cf key d) : IsDisp files uf key d := by
  obtain ⟨g, i', r', e1, e2, e3, e4, e5⟩ := hc
  rw [hk] at e1
  obtain ⟨v, hv, hv'⟩ := Option.map_eq_some_iff.1 e1
  obtain ⟨f, rfl, rfl⟩ := convAll_eq_obj hv'
  rw [Fields.get_convAll] at e2 e3
  obtain ⟨i, hi, rfl⟩ := Option.map_eq_some_iff.1 e2
  obtain ⟨r, hr, rfl⟩ := Option.map_eq_some_iff.1 e3
  refine ⟨f, i, r, hv, hi, hr, isInt_convAll.1 e4, ?_⟩
  rcases e5 with ⟨n, h1, h2⟩ | ⟨s, h1, h2⟩
  · exact .inl ⟨n, isInt_convAll.1 h1, h2⟩
  · exact .inr ⟨s, convAll_eq_str h1, h2⟩

/-- The ranges read on the full image. -/
theorem full_ranges {H W : Nat} {d : Disp} {M : MinMax} (hM : getMinMax 0 0 H W d false = .ok M) (r c : Nat) :
    M.lo.get r c = initAt d r c - d.range ∧ M.hi.get r c = initAt d r c + d.range := by
  obtain ⟨-, p, -⟩ := getMinMax_spec hM
  unfold initAt
  cases hi : d.init with
  | const i =>
    rw [hi] at p
    have := p r c
    simp only [sgn, Bool.false_eq_true, if_false, mul_one] at this
    exact this
  | grid g =>
    rw [hi] at p
    have := p.2.2 r c
    have z : ∀ n, sliceStart n 0 = 0 := fun n => by simp [sliceStart, clampIdx]
    simp only [sgn, Bool.false_eq_true, if_false, mul_one, z, zero_add] at this
    exact this

/-- The range is constant exactly when the initial disparity does not depend on the pixel. -/
theorem constant_iff_flat {H W : Nat} {d : Disp} {M : MinMax} (hH : 0 < H) (hW : 0 < W)
    (hM : getMinMax 0 0 H W d false = .ok M) : ConstantRange M H W ↔ FlatAt d H W := by
  have hat := full_ranges hM
  obtain ⟨-, ⟨r1, l1, c1, l2, e1⟩, ⟨r2, l3, c2, l4, e2⟩⟩ := C11_source_is_tight_hull _ _ _ _ _ _ _ hH hW hM
  constructor
  · intro h R C h1 h2 h3 h4
    obtain ⟨r, rfl⟩ := Int.eq_ofNat_of_zero_le h1
    obtain ⟨c, rfl⟩ := Int.eq_ofNat_of_zero_le h3
    have e1 := (h r (by omega) c (by omega)).1
    have e2 := (h 0 hH 0 hW).1
    rw [(hat r c).1] at e1
    rw [(hat 0 0).1] at e2
    simp only [Nat.cast_zero] at e2
    omega
  · intro h r hr c hcw
    rw [← e1, ← e2, (hat r c).1, (hat r c).2, (hat r1 c1).1, (hat r2 c2).2,
      h r c (by omega) (by omega) (by omega) (by omega), h r1 c1 (by omega) (by omega) (by omega) (by omega),
      h r2 c2 (by omega) (by omega) (by omega) (by omega)]
    exact ⟨rfl, rfl⟩

theorem inner_fits {n step half : Nat} {x : Int} (h : InnerPoint 0 n step half x) : WindowFits half step n := by
  obtain ⟨⟨a, h1, h2⟩, b, h3, h4⟩ := h
  refine ⟨a, a + b, h1, by rw [add_mul]; omega, ?_⟩
  rw [add_mul]
  have : ((a * step + b * step : Nat) : Int) < n := by push_cast; omega
  exact_mod_cast this

section
variable {w : World K} {user p0 mc cfg : Fields} {m : Mach (Machine.Attrs J Margins)} {H W : Nat} {sr sc : Nat}

/-- The input section of an accepted configuration without estimation. -/
theorem input_given {cin inp : Fields} (hw : user.wf) (h : checkInputSection w.env (getConfigInput user) false = .ok cin)
    (hin : cin.get "input" = some (.obj inp)) (hu : (user.get "input").isSome = true) :
    ∃ ui, user.get "input" = some (.obj ui) ∧ ui.wf ∧ ∀ k, k ≠ "left" → k ≠ "right" → inp.get k = (ui.get k).map J.convAll := by
  obtain ⟨c, x1, x2, -, -⟩ := checkInputSection_ok h
  simp only [Bool.false_eq_true, if_false] at x2
  subst x2
  obtain ⟨uf, y1, y2, y3⟩ := input_section_get (getConfigInput_wf hw) x1 hin (by rw [getConfigInput_get]; exact hu)
  rw [getConfigInput_get] at y1
  exact ⟨uf, y1, y2, y3⟩

theorem flat_ranges (hw : user.wf) (hR : user.get "ROI" = none) (hs : 2 ≤ H ∧ 2 ≤ W) {ui : Fields} {dRow dCol : Disp}
    (hui : user.get "input" = some (.obj ui)) (h1 : IsDisp w.files ui "row_disparity" dRow) (h2 : IsDisp w.files ui "col_disparity" dCol)
    (f1 : FlatAt dRow H W) (f2 : FlatAt dCol H W) : RangesFlat w user m H W 0 (H - 1) 0 (W - 1) := by
  intro cin inp roi img d1 d2 R C c2 hinp hf hz i1 i2 _ g1 g2
  obtain ⟨ui', y1, y2, y3⟩ := input_given hw c2 hinp (by rw [hui]; rfl)
  rw [hui, Option.some.injEq, J.obj.injEq] at y1
  subst y1
  have q1 := isDisp_checked y2 (y3 _ (by decide) (by decide)) h1 i1
  have q2 := isDisp_checked y2 (y3 _ (by decide) (by decide)) h2 i2
  subst q1 q2
  cases roi with
  | some r => obtain ⟨v, hv, -⟩ := hf; rw [hR] at hv; simp at hv
  | none =>
    obtain ⟨a1, a2, a3, a4, -⟩ := hz
    rw [a1, a2, a3, a4] at g1 g2
    rw [a3, a4]
    exact ⟨(constant_iff_flat (by omega) (by omega) g1).2 f1, (constant_iff_flat (by omega) (by omega) g2).2 f2⟩

/-- A refinement accepted by the check has one of the three methods. -/
theorem refinement_methods {pl' : Fields} (hw : user.wf) (hu : user.get "pipeline" = some (.obj p0))
    (h : checkPipelineJ w.steps user (fresh .init) = (m, .ok (.cons "pipeline" (.obj pl') .nil))) {v : J}
    (hv : p0.get "refinement" = some v) : ∃ f, v = .obj f ∧ (f.get "refinement_method" = some (.str "dichotomy") ∨
      f.get "refinement_method" = some (.str "optical_flow") ∨ f.get "refinement_method" = some (.str "interpolation")) := by
  obtain ⟨vm, cm, st, wn, mar, c, -, -, -, -, k5, -⟩ := checked_with hw hu h hv
  cases hc : v.convAll with
  | obj g =>
    obtain ⟨f, rfl, rfl⟩ := convAll_eq_obj hc
    refine ⟨f, rfl, ?_⟩
    rw [hc] at k5
    simp only [refinementCheck] at k5
    split at k5
    · simp at k5
    · rename_i s hs
      rw [Fields.get_convAll] at hs
      obtain ⟨x, hx, hx'⟩ := Option.map_eq_some_iff.1 hs
      rw [convAll_eq_str hx'] at hx
      rw [hx]
      split_ifs at k5 with e1 e2 e3
      · left; rw [e1]
      · right; left; rw [e2]
      · right; right; rw [e3]
    · simp at k5
  | _ => rw [hc] at k5; simp [refinementCheck] at k5

end

/-- C99: for every accepted configuration with a disparity step on full images of at least two rows and columns, in every world where the
images accepted by the check can be read and the correlation of an estimation gives finite shifts: `main` ends without exception if and only
if the ranges allow the steps (steps of one, or an estimation, or initial disparities which are the same for all the pixels) and the
refinement allows the steps and the size of the image (a dichotomy with steps of one, an optical flow with some point of the maps which has
points at least half a window away on each side of each axis, an interpolation or none). -/
theorem C99_runs_exactly (w : World K) (user p0 mc cfg : Fields) (m : Mach (Machine.Attrs J Margins)) (H W sr sc : Nat)
    (hw : user.wf) (hc : RunContract w H W) (hu : user.get "pipeline" = some (.obj p0)) (hd : "disparity" ∈ p0.keys)
    (hmc : p0.get "matching_cost" = some (.obj mc)) (hst : StepIs mc sr sc) (hR : user.get "ROI" = none) (hs : 2 ≤ H ∧ 2 ≤ W)
    (hest : p0.get "estimation" ≠ none → ∀ l r s, ∃ x y, w.run.correlation l r s = (.fin x, .fin y))
    (h : Config.checkConf w.env w.steps user (fresh .init) = (m, .ok cfg)) :
    (Main.main w user).2 = none ↔ RangesRun w user p0 H W sr sc ∧ RefinementRuns w p0 mc H W sr sc := by
  have hz : ZoneIs user H W 0 ((H : Int) - 1) 0 ((W : Int) - 1) := .inr ⟨hR, rfl, rfl, rfl, rfl⟩
  have hne : (0 : Int) < (H : Int) - 1 ∧ (H : Int) - 1 < H ∧ (0 : Int) < (W : Int) - 1 ∧ (W : Int) - 1 < W := by omega
  obtain ⟨p0', cin, pl', c1, c2, c3, -, -, -, -, -⟩ := checkConf_gets w.env w.steps user cfg _ m hw h
  rw [hu, Option.some.injEq, J.obj.injEq] at c1
  subst c1
  constructor
  · intro hrun
    obtain ⟨s⟩ := main_stages w user p0 (Main.main w user).1 hw hc.pandora hu hd (Prod.ext rfl hrun)
    obtain ⟨hin, hzone⟩ := s.zone hc.disk hz ⟨hne.2.1, hne.2.2.2⟩
    have hroi : s.roi = none := by
      have hf := s.roiFor
      cases hr : s.roi with
      | none => rfl
      | some r => rw [hr] at hf; obtain ⟨v, hv, -⟩ := hf; rw [hR] at hv; simp at hv
    rw [hroi] at hzone
    obtain ⟨a1, a2, a3, a4, -⟩ := hzone
    obtain ⟨dRow, dCol, L, cv, o, mp, e1, e2, e3, e4, e5, e6, hp, r2, r3, r4, hmaps, e7, e8, e9⟩ := s.volumes hc.disk hin hw hu
    obtain ⟨b1, b2, b3, b4⟩ := s.reads.steps
    obtain ⟨-, -, -, -, hg⟩ := pipeline_new w.steps user p0 s.pl s.m hw hu s.pipeline
    have hpw : p0.wf := Fields.wf_get user hw hu
    -- the matching cost
    obtain ⟨cm, vm', hm1, -, hm2, hm3⟩ := hg _ _ hmc
    obtain ⟨me', k, cost, hbm, -⟩ := mc_rebuilt hc.keeps hm1 hm2 hst
    obtain ⟨vb, hvb, hvb'⟩ := s.reads.built
    rw [hm3, Option.some.injEq] at hvb
    subst hvb
    rw [hbm, Except.ok.injEq, StepCfg.matchingCost.injEq] at hvb'
    obtain ⟨hcfg, hoff, -⟩ := hvb'
    have hsr : s.plan.cfg.stepRow = sr := by rw [← hcfg]
    have hsc : s.plan.cfg.stepCol = sc := by rw [← hcfg]
    have hLh : L.img.h = H := by rw [e2]; omega
    have hLw : L.img.w = W := by rw [e2]; omega
    have hLr : L.img.row0 = 0 := by rw [e2]; omega
    have hLc : L.img.col0 = 0 := by rw [e2]; omega
    refine ⟨?_, fun f href => ⟨fun hm => ?_, fun hm => ?_⟩⟩
    · by_cases hone : sr = 1 ∧ sc = 1
      · exact .inl hone
      · by_cases he : p0.get "estimation" = none
        · have hst' : (2 ≤ s.plan.cfg.stepRow ∧ 2 ≤ L.img.h) ∨ (2 ≤ s.plan.cfg.stepCol ∧ 2 ≤ L.img.w) := by omega
          have hcst : ConstantRange L.rowDisp L.img.h L.img.w ∧ ConstantRange L.colDisp L.img.h L.img.w := by
            by_contra hv
            have := C09_variable_ranges_with_step_raise (z := w.run.zoom) (pc := s.plan.cost) (roi := s.roi)
              (margins := refinementMargins s.m.data) hp (uniform_of_config _ _ _ _ _ _ e5) (uniform_of_config _ _ _ _ _ _ e6) b3 b1 hst'
              (by tauto)
            rw [r2] at this
            simp at this
          rw [hLr, hLc, hLh, hLw] at e5 e6
          rw [hLh, hLw] at hcst
          have hge : givesEstimation p0 = false := by unfold givesEstimation; rw [he]
          have hin' := s.input
          rw [hge] at hin'
          obtain ⟨i1, i2⟩ := e8 he
          have hsome : (user.get "input").isSome = true := by
            cases hi : user.get "input" with
            | some v => rfl
            | none =>
              exfalso
              obtain ⟨c, x1, x2, -, -⟩ := checkInputSection_ok hin'
              simp only [Bool.false_eq_true, if_false] at x2
              subst x2
              have hdef := (updateConf_get (getConfigInput user) defaultInput _ (Fields.wf_keys _ (getConfigInput_wf hw)) x1 "input").1
                (by rw [getConfigInput_get]; exact hi)
              rw [s.inputIs] at hdef
              simp only [defaultInput, Fields.get, if_true, Option.some.injEq, J.obj.injEq] at hdef
              obtain ⟨_, _, _, j1, -⟩ := i1
              rw [hdef] at j1
              simp [Fields.get] at j1
          obtain ⟨ui, y1, y2, y3⟩ := input_given hw hin' s.inputIs hsome
          exact .inr (.inr ⟨ui, dRow, dCol, y1, isDisp_user (y3 _ (by decide) (by decide)) i1, isDisp_user (y3 _ (by decide) (by decide)) i2,
            (constant_iff_flat (by omega) (by omega) e5).1 hcst.1, (constant_iff_flat (by omega) (by omega) e6).1 hcst.2⟩)
        · exact .inr (.inl he)
    · -- the dichotomy
      obtain ⟨vm, cm', st, wn, mar, c', -, -, -, -, k5, k6⟩ := checked_with hw hu s.pipeline href
      obtain ⟨c, v', h1, h2, h3, h4⟩ := hg _ _ href
      rw [h2, Option.some.injEq, Prod.mk.injEq] at k6
      obtain ⟨-, rfl⟩ := k6
      obtain ⟨it, flt, q1, q2, q3, q4⟩ := dicho_rebuilt (a := s.m.data) (Fields.wf_get p0 hpw href) hm k5 h3
      obtain ⟨v'', c', w1, w2, w3⟩ := s.reads.refinement _ href
      rw [h4, Option.some.injEq] at w1
      subst w1
      rw [q2, Except.ok.injEq] at w2
      subst w2
      rw [refinement_margins hw hu s.pipeline h2] at r2
      rw [w3] at r4
      simp only [List.map_cons, List.map_nil, refinedAll, refined] at r4
      obtain ⟨o', y1, y2⟩ := bind_eq_ok r4
      obtain ⟨x, z1, z2⟩ := bind_eq_ok y1
      have hx : Dichotomy.refinementMethod flt it cv s.plan.invalid o.row o.col (gridsOf L) = .ok x := z1
      by_contra hcon
      have hcon' : (2 ≤ s.plan.cfg.stepRow ∧ 2 ≤ L.img.h) ∨ (2 ≤ s.plan.cfg.stepCol ∧ 2 ≤ L.img.w) := by omega
      obtain ⟨e, he⟩ := C61_dichotomy_raises_with_step (f := flt) (it := it) (invalid := s.plan.invalid) hp b3 b1 r2 hcon' o.row o.col
      rw [hx] at he
      simp at he
    · -- the optical flow
      obtain ⟨vm, cm', st, wn, mar, c', k1, k2, k3, k4, k5, k6⟩ := checked_with hw hu s.pipeline href
      rw [hmc, Option.some.injEq] at k1
      subst k1
      obtain ⟨c, v', h1, h2, h3, h4⟩ := hg _ _ href
      rw [h2, Option.some.injEq, Prod.mk.injEq] at k6
      obtain ⟨-, rfl⟩ := k6
      obtain ⟨half, it, q1, q2, q3, q4⟩ := flow_rebuilt (Fields.wf_get p0 hpw href) hm k3 k4 (mc_values k2).1 k5 h3
      have hcm : cm' = cm := by
        simp only [Checked, String.reduceEq, false_and, true_and, false_or, or_false] at hm1
        obtain ⟨_, _, _, hm1⟩ := hm1
        have hm1 : matchingCostCheck w.pandora (J.obj mc).convAll = .ok (cm, _, _, _) := hm1
        rw [k2, Except.ok.injEq, Prod.mk.injEq] at hm1
        exact hm1.1
      have hoffset : s.plan.offset = half := by
        obtain ⟨-, g, hg1, hg2⟩ := mc_values k2
        rw [← hoff, ← hcm, hg1, hc.offset g wn _ hg2 q2]
        omega
      obtain ⟨v'', c', w1, w2, w3⟩ := s.reads.refinement _ href
      rw [h4, Option.some.injEq] at w1
      subst w1
      rw [q3, Except.ok.injEq] at w2
      subst w2
      rw [w3] at r4
      simp only [List.map_cons, List.map_nil, refinedAll, refined] at r4
      obtain ⟨o', y1, y2⟩ := bind_eq_ok r4
      obtain ⟨x, z1, z2⟩ := bind_eq_ok y1
      rw [hoffset] at z1
      have hx : OpticalFlow.refinementMethod w.run.flow w.run.junk ⟨2 * half + 1, it⟩ (coordsOf cv s.plan.cfg half) s.plan.invalid o.row
        o.col L.img s.right.img L.rowDisp L.colDisp = .ok x := z1
      have S := flow_setting hp b3 b1 b2 r2 r3 half it q1
      have hinner : (∃ k, InnerIdx cv.row half k) ∧ ∃ k, InnerIdx cv.col half k := by
        by_contra hv
        obtain ⟨e, he⟩ := C50_small_raises (e := w.run.flow) (junk := w.run.junk) (invalid := s.plan.invalid) (right := s.right.img)
          (rowDisp := L.rowDisp) (colDisp := L.colDisp) S (by
            show (¬ ∃ k, InnerIdx cv.row half k) ∨ ¬ ∃ k, InnerIdx cv.col half k
            tauto)
        rw [hx] at he
        simp at he
      obtain ⟨⟨i, hi⟩, j, hj⟩ := hinner
      obtain ⟨x1, x2, -⟩ := compute_char hp b3 b1 r2
      have n1 := (inner_point (half := half) b1 (by rw [x1, rowCoords_eq]) hi.1).1 hi
      have n2 := (inner_point (half := half) b2 (by rw [x2, colCoords_eq]) hj.1).1 hj
      rw [hLr, hLh, hsr] at n1
      rw [hLc, hLw, hsc] at n2
      exact ⟨half, _, _, ⟨_, _, _, _, k2, q2⟩, n1, n2⟩
  · rintro ⟨hr, hf⟩
    refine accepted_runs w user p0 mc cfg m H W 0 ((H : Int) - 1) 0 ((W : Int) - 1) sr sc hw hc hu hd hmc hst hz hne
      (fun he => ⟨hest he, .inl hR⟩) ?_ ?_ h
    · intro v hv
      obtain ⟨f, rfl, hm⟩ := refinement_methods hw hu c3 hv
      obtain ⟨t1, t2⟩ := hf f hv
      refine ⟨f, rfl, ?_⟩
      rcases hm with hm | hm | hm
      · exact .inr (.inl ⟨hm, t1 hm⟩)
      · obtain ⟨half, R, C, q1, q2, q3⟩ := t2 hm
        refine .inr (.inr ⟨hm, .inl hR, ?_⟩)
        intro c st wn mar half' g1 g2
        obtain rfl := half_unique q1 ⟨_, _, _, _, g1, g2⟩
        rw [show ((H : Int) - 1 - 0 + 1).toNat = H by omega, show ((W : Int) - 1 - 0 + 1).toNat = W by omega]
        exact ⟨inner_fits q2, inner_fits q3⟩
      · exact .inl hm
    · rcases hr with hr | hr | ⟨ui, dRow, dCol, u1, u2, u3, u4, u5⟩
      · exact .inl hr
      · exact .inr (.inl hr)
      · exact .inr (.inr (flat_ranges hw hR hs u1 u2 u3 u4 u5))

/-- The configurations of the examples meet the hypotheses of C99, whatever the steps, refinement and initial disparities accepted. -/
theorem exWhole_exactly (half rows : Nat) (hr : 2 ≤ rows) (sr sc : Nat) (refinement init : Option J)
    (hw : (exUserWhole sr sc refinement init).wf) (ha : accepted (exWorldOf half rows) (exUserWhole sr sc refinement init) = true) :
    ∃ mc, (exPipeline none sr sc refinement).get "matching_cost" = some (.obj mc) ∧
      ((Main.main (exWorldOf half rows) (exUserWhole sr sc refinement init)).2 = none ↔
        RangesRun (exWorldOf half rows) (exUserWhole sr sc refinement init) (exPipeline none sr sc refinement) rows 3 sr sc ∧
          RefinementRuns (exWorldOf half rows) (exPipeline none sr sc refinement) mc rows 3 sr sc) := by
  obtain ⟨m, cfg, h⟩ := accepted_ok ha
  exact ⟨_, rfl, C99_runs_exactly (exWorldOf half rows) _ (exPipeline none sr sc refinement) _ cfg m rows 3 sr sc hw
    (exWorldOf_contract half rows (by omega)) rfl (by cases refinement <;> simp [exPipeline, dict, Fields.append, Fields.keys]) rfl
    (.inl ⟨_, _, rfl, .inl rfl, .inl rfl⟩) rfl ⟨hr, by decide⟩ (fun _ _ _ _ => ⟨_, _, rfl⟩) h⟩

/-- Two grids whose values are all equal run with a step of two rows, through the right side of C99. -/
example : (Main.main (exWorldOf 0 3) (exUserWhole 2 1 none (some (.str "grid.tif")))).2 = none := by
  obtain ⟨mc, -, h⟩ := exWhole_exactly 0 3 (by decide) 2 1 none (some (.str "grid.tif"))
    (by simp [exUserWhole, exInput, exPipeline, dict, Fields.append, Fields.wf, J.wf, Fields.keys]) (by decide +kernel)
  have flat : FlatAt ⟨.grid ((exWorldOf 0 3).files.grid "grid.tif"), 1⟩ 3 3 := by
    intro R C h1 h2 h3 h4
    simp only [initAt, exWorldOf]
    rw [if_pos (by omega), if_pos (by decide)]
  exact h.2 ⟨.inr (.inr ⟨_, _, _, rfl, ⟨_, _, _, rfl, rfl, rfl, .inl rfl, .inr ⟨_, rfl, rfl⟩⟩,
    ⟨_, _, _, rfl, rfl, rfl, .inl rfl, .inr ⟨_, rfl, rfl⟩⟩, flat, flat⟩), fun f hf => by simp [exPipeline, dict, Fields.append, Fields.get] at hf⟩

/-- The same configuration with grids which vary from the fourth row on does not run: by C99 the ranges do not allow the steps. -/
example : ¬ RangesRun (exWorldOf 0 5) (exUserWhole 2 1 none (some (.str "grid.tif"))) (exPipeline none 2 1 none) 5 3 2 1 := by
  obtain ⟨mc, -, h⟩ := exWhole_exactly 0 5 (by decide) 2 1 none (some (.str "grid.tif"))
    (by simp [exUserWhole, exInput, exPipeline, dict, Fields.append, Fields.wf, J.wf, Fields.keys]) (by decide +kernel)
  intro hr
  have := h.2 ⟨hr, fun f hf => by simp [exPipeline, dict, Fields.append, Fields.get] at hf⟩
  revert this
  decide +kernel

end Verif.Props
