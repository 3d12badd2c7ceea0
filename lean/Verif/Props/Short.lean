import Verif.Props.AcceptedExample

/-!
# C81 for the pipelines without a disparity step
-/

namespace Verif.Props

open Verif Verif.Config Verif.Machine Verif.ImgTools Verif.MatchingCost Verif.Disparity Verif.Estimation Verif.Run Verif.Main Verif.Spec
  Verif.Save Verif.Statistics

set_option linter.unusedSectionVars false

variable {K : Type} [Field K] [LinearOrder K] [IsStrictOrderedRing K] [FloorRing K]

/-- The steps before the disparity. -/
def shortSteps (est : Option (Int × Int × Nat)) (mc : Option (Cfg × Nat × Pandora.Cost K)) : Pipeline (StepCfg K) :=
  (match est with | some (a, b, s) => [("estimation", .estimation a b s)] | none => []) ++
    (match mc with | some (c, off, cost) => [("matching_cost", .matchingCost c off cost)] | none => [])

theorem shortSteps_keys {est : Option (Int × Int × Nat)} {mc : Option (Cfg × Nat × Pandora.Cost K)} {e q : Bool} (he : est = none ↔ e = false)
    (hq : mc = none ↔ q = false) :
    (shortSteps est mc).map Prod.fst = (if e then ["estimation"] else []) ++ (if q then ["matching_cost"] else []) := by
  rcases est with _ | ⟨a, b, s⟩ <;> rcases mc with _ | ⟨c, off, cost⟩ <;> cases e <;> cases q <;> simp_all [shortSteps]

/-- The callbacks of the steps before the disparity: an estimation or not, a matching cost or not. -/
theorem short_callbacks {e : Env K} {roi : Option Roi} {left L : Left K} {right : Img K} {est : Option (Int × Int × Nat)}
    {mc : Option (Cfg × Nat × Pandora.Cost K)} {d : Run.Attrs K} {p : Plan K} (hp : p.estimation = est)
    (hL : searched e p left right = .ok L)
    (hcv : ∀ c off cost, mc = some (c, off, cost) → ∃ cv, computeCostVolumes e.zoom cost c roi L right d.margins = .ok cv) :
    (runCallbacks (runExec e roi) (shortSteps est mc) (runPlan ((shortSteps est mc).map Prod.fst)) (prepare left right d)).2 = none ∧
    (runCallbacks (runExec e roi) (shortSteps est mc) (runPlan ((shortSteps est mc).map Prod.fst)) (prepare left right d)).1.maps = d.maps := by
  unfold shortSteps
  have p1 : runPlan ["estimation"] = [(Cb.estimationRun, "estimation")] := by decide
  have p2 : runPlan ["matching_cost"] = [(Cb.matchingCostPrepare, "matching_cost"), (Cb.matchingCostRun, "matching_cost")] := by decide
  have p3 : runPlan ["estimation", "matching_cost"] = [(Cb.estimationRun, "estimation"), (Cb.matchingCostPrepare, "matching_cost"),
    (Cb.matchingCostRun, "matching_cost")] := by decide
  rcases est with _ | ⟨a, b, s⟩
  · have hl : L = left := by
      unfold searched at hL
      rw [hp] at hL
      exact (Except.ok.inj hL).symm
    subst hl
    rcases mc with _ | ⟨c, off, cost⟩
    · simp [runPlan, runCallbacks, prepare]
    · obtain ⟨cv, hcv⟩ := hcv c off cost rfl
      simp only [List.nil_append, List.map_cons, List.map_nil, p2]
      simp [runCallbacks, runExec, lookup, prepare, hcv]
  · have hL' := estimate_eq e p left right a b s hp
    rw [hL] at hL'
    rcases mc with _ | ⟨c, off, cost⟩
    · simp only [List.append_nil, List.map_cons, List.map_nil, p1]
      simp [runCallbacks, runExec, lookup, prepare, hL']
    · obtain ⟨cv, hcv⟩ := hcv c off cost rfl
      simp only [List.cons_append, List.nil_append, List.map_cons, List.map_nil, p3]
      simp [runCallbacks, runExec, lookup, prepare, hL', hcv]

/-- C81, pipelines without a disparity step (nothing, an estimation, a matching cost, or both): with the same conditions on the disparities
and the steps, `main` ends without exception. -/
theorem C81_without_disparity (w : World K) (user p0 cfg : Fields) (m : Mach (Machine.Attrs J Disparity.Margins)) (H W : Nat)
    (rf rl cf cl : Int) (hw : user.wf) (hc : RunContract w H W) (hu : user.get "pipeline" = some (.obj p0)) (hd : "disparity" ∉ p0.keys)
    (hz : ZoneIs user H W rf rl cf cl) (hne : rf < rl ∧ rl < H ∧ cf < cl ∧ cl < W) (hest : EstimationOk w user p0)
    (hmc : ∀ v, p0.get "matching_cost" = some v → ∃ mc sr sc, v = .obj mc ∧ StepIs mc sr sc ∧
      ((sr = 1 ∧ sc = 1) ∨ p0.get "estimation" ≠ none ∨ ConstantInits user))
    (h : Config.checkConf w.env w.steps user (fresh .init) = (m, .ok cfg)) : (Main.main w user).2 = none := by
  obtain ⟨p0', cin, pl', c1, c2, c3, -, c5, c6, c7, c8⟩ := checkConf_gets w.env w.steps user cfg _ m hw h
  rw [hu, Option.some.injEq, J.obj.injEq] at c1
  subst c1
  obtain ⟨hwf, hk, -, hm, hg⟩ := pipeline_new w.steps user p0 pl' m hw hu c3
  have hpw : p0.wf := Fields.wf_get user hw hu
  have hn : p0.keys.Nodup := Fields.wf_keys p0 hpw
  have hsome : ∀ k, k ∈ p0.keys → ∃ v, p0.get k = some v := fun k hk => Option.isSome_iff_exists.1 ((Fields.get_isSome p0 k).2 hk)
  -- the estimation
  have hestv : ∀ v, p0.get "estimation" = some v → ∃ v' rr rc sf g, pl'.get "estimation" = some v' ∧ v' = .obj g ∧ v ≠ .null ∧
      buildEstimation w v' = .ok (.estimation rr rc sf) := by
    intro v hv
    obtain ⟨c, v', h1, -, h3, h4⟩ := hg _ _ hv
    obtain ⟨rr, rc, sf, hb⟩ := est_rebuilt (Fields.wf_get p0 hpw hv) h1 h3
    obtain ⟨g, -, -, -, e, -⟩ := buildEstimation_ranges hb
    refine ⟨v', rr, rc, sf, g, h4, e, ?_, hb⟩
    rintro rfl
    simp [Checked, World.steps, stepsOf, J.convAll, conv, estimationCheck] at h1
  have hge : givesEstimation p0 = (pl'.get "estimation").isSome := by
    unfold givesEstimation
    cases he : p0.get "estimation" with
    | none =>
      have : pl'.get "estimation" = none := by rw [Fields.get_eq_none, hk, ← Fields.get_eq_none]; exact he
      rw [this]; rfl
    | some v =>
      obtain ⟨v', _, _, _, _, e1, -, e2, -⟩ := hestv v he
      rw [e1]
      simp [e2]
  obtain ⟨inp, hinp, hsch, -⟩ := input_ok w.env _ cin _ c2
  obtain ⟨fc, -, -, -, hcol, -⟩ := schema_disp w.env inp hsch "col_disparity" (Or.inl rfl)
  obtain ⟨fr, -, -, -, hrow, -⟩ := schema_disp w.env inp hsch "row_disparity" (Or.inr rfl)
  -- the ROI
  have hdisps : cfg.get "ROI" ≠ none → ∃ dc dr, Datasets.dispOf w.files (.obj fc) = .ok dc ∧ Datasets.dispOf w.files (.obj fr) = .ok dr ∧
      SameInit dc dr := by
    intro hR
    rw [c7] at hR
    cases hb : givesEstimation p0 with
    | false =>
      rw [hb] at c2
      exact input_disps c2 hinp hcol hrow
    | true =>
      rw [hb] at c2
      have he : p0.get "estimation" ≠ none := by
        intro he
        unfold givesEstimation at hb
        rw [he] at hb
        simp at hb
      rcases (hest he).2 with hR' | ⟨ui, u1, u2⟩
      · exact absurd hR' hR
      · exact default_disps (getConfigInput_wf hw) c2 (by rw [getConfigInput_get]; exact u1) u2 hinp hcol hrow
  obtain ⟨cfg1, readRoi, roi, hroi⟩ := roiStep_forward (w := w) (a := m.data) (fun v hv => c5 v (by rw [← c7]; exact hv)) hdisps
  obtain ⟨r1, r2, r3, r4⟩ := roiStep_ok w m.data cfg cfg1 _ _ readRoi roi hroi
  subst r1
  have hf : RoiFor user readRoi := by
    cases hR : user.get "ROI" with
    | none =>
      rw [(r3 (by rw [c7]; exact hR)).1]
      exact hR
    | some v =>
      obtain ⟨R, rfl, b1, b2⟩ := r4 v (by rw [c7]; exact hR)
      exact ⟨v, hR, b1, roiOk_bounds (c5 v hR) b1, b2⟩
  -- the datasets
  obtain ⟨inp', left, right, d1, d2, d3, d4, d5⟩ := datasets_forward hc c2 hinp hf hz hne
  have d1' := d1
  rw [hge] at d1'
  -- the shape of the pipeline
  obtain ⟨e, q, hshape⟩ : ∃ e q : Bool, p0.keys = (if e then ["estimation"] else []) ++ (if q then ["matching_cost"] else []) := by
    obtain ⟨e, h1 | h1 | h1 | h1⟩ := wellFormed_cases hwf hn
    · exact ⟨e, false, by rw [h1]; simp⟩
    · exact ⟨e, true, by rw [h1]; simp⟩
    · rw [h1] at hd; simp at hd
    · rw [h1] at hd; simp at hd
  have hpl := toPipeline_eq pl' (by rw [hk]; exact hn) _ (hk.trans hshape)
  have he : p0.get "estimation" = none ↔ e = false := by
    rw [Fields.get_eq_none, hshape]; cases e <;> cases q <;> simp
  -- the steps
  obtain ⟨est, hestN, hestB⟩ : ∃ est : Option (Int × Int × Nat), (est = none ↔ e = false) ∧ ∀ a b s, est = some (a, b, s) →
      ∃ v', pl'.get "estimation" = some v' ∧ buildEstimation w v' = .ok (.estimation a b s) := by
    cases e with
    | false => exact ⟨none, by simp, by simp⟩
    | true =>
      obtain ⟨v, hv⟩ := hsome "estimation" (by rw [hshape]; simp)
      obtain ⟨v', rr, rc, sf, _, e1, -, -, e2⟩ := hestv v hv
      refine ⟨some (rr, rc, sf), by simp, fun a b s hs => ⟨v', e1, ?_⟩⟩
      simp only [Option.some.injEq, Prod.mk.injEq] at hs
      obtain ⟨rfl, rfl, rfl⟩ := hs
      exact e2
  obtain ⟨mc, hmcN, hmcB⟩ : ∃ mc : Option (Cfg × Nat × Pandora.Cost K), (mc = none ↔ q = false) ∧ ∀ c off cost, mc = some (c, off, cost) →
      (∃ v', pl'.get "matching_cost" = some v' ∧ buildMatchingCost w v' = .ok (.matchingCost c off cost)) ∧
      0 < c.subpix ∧ 1 ≤ c.stepRow ∧ ((c.stepRow = 1 ∧ c.stepCol = 1) ∨ p0.get "estimation" ≠ none ∨ ConstantInits user) := by
    cases q with
    | false => exact ⟨none, by simp, by simp⟩
    | true =>
      obtain ⟨v, hv⟩ := hsome "matching_cost" (by rw [hshape]; simp)
      obtain ⟨f, sr, sc, rfl, hst, hcase⟩ := hmc v hv
      obtain ⟨cm, vm', hm1, -, hm2, hm3⟩ := hg _ _ hv
      obtain ⟨me, k, cost, hbm, -⟩ := mc_rebuilt hc.keeps hm1 hm2 hst
      obtain ⟨f', g', n, sr', sc', a, b, off, cost', me', -, -, -, -, -, q6, -, q8, -, q9, -⟩ := mc_section hc.pandora hm1 hm2 hbm
      simp only [StepCfg.matchingCost.injEq, Cfg.mk.injEq] at q9
      refine ⟨some (⟨2 ^ k, sr, sc, me⟩, w.offset cm, cost), by simp, fun c off cost' hs => ?_⟩
      simp only [Option.some.injEq, Prod.mk.injEq] at hs
      obtain ⟨rfl, rfl, rfl⟩ := hs
      exact ⟨⟨vm', hm3, hbm⟩, by positivity, by rw [q9.1.2.1]; exact q6, hcase⟩
  have hsteps : buildAll w m.data (toPipeline pl') = .ok (shortSteps est mc) := by
    rw [hpl]
    have bm : ∀ c off cost, mc = some (c, off, cost) → build w m.data "matching_cost" ((pl'.get "matching_cost").getD .null) =
        .ok (.matchingCost c off cost) := by
      intro c off cost hs
      obtain ⟨⟨v', e1, e2⟩, -⟩ := hmcB c off cost hs
      rw [(build_names w m.data _).2.1, e1]
      exact e2
    have be : ∀ a b s, est = some (a, b, s) → build w m.data "estimation" ((pl'.get "estimation").getD .null) = .ok (.estimation a b s) := by
      intro a b s hs
      obtain ⟨v', e1, e2⟩ := hestB a b s hs
      rw [(build_names w m.data _).1, e1]
      exact e2
    rcases est with _ | ⟨a, b, s⟩ <;> rcases mc with _ | ⟨c, off, cost⟩
    · rw [hestN.1 rfl, hmcN.1 rfl]
      rfl
    · have hq : q = true := by cases q <;> simp_all
      rw [hestN.1 rfl, hq]
      simp [shortSteps, buildAll, bm c off cost rfl, bind, Except.bind, pure, Except.pure]
    · have hq : e = true := by cases e <;> simp_all
      rw [hq, hmcN.1 rfl]
      simp [shortSteps, buildAll, be a b s rfl, bind, Except.bind, pure, Except.pure]
    · have hq : e = true := by cases e <;> simp_all
      have hq' : q = true := by cases q <;> simp_all
      rw [hq, hq']
      simp [shortSteps, buildAll, be a b s rfl, bm c off cost rfl, bind, Except.bind, pure, Except.pure]
  -- the ranges
  obtain ⟨t1, t2, -⟩ := zone_size d3 hne
  obtain ⟨p, hpe⟩ : ∃ p : Plan K, p.estimation = est := ⟨⟨est, ⟨1, 1, 1, .min⟩, 0, w.cost .null, .nan, []⟩, rfl⟩
  have hL : ∃ (L : Left K) (dRow dCol : Disp), searched w.run p left right.img = .ok L ∧ L.img = left.img ∧ 0 ≤ dRow.range ∧
      0 ≤ dCol.range ∧
      getMinMax L.img.row0 L.img.col0 L.img.h L.img.w dRow false = .ok L.rowDisp ∧
      getMinMax L.img.row0 L.img.col0 L.img.h L.img.w dCol false = .ok L.colDisp ∧
      (p0.get "estimation" ≠ none ∨ ConstantInits user → ((∃ n, dRow.init = .const n) ∧ ∃ n, dCol.init = .const n)) := by
    rcases est with _ | ⟨rr, rc, sf⟩
    · have he' : p0.get "estimation" = none := he.2 (hestN.1 rfl)
      have hb : givesEstimation p0 = false := by unfold givesEstimation; rw [he']
      rw [hb] at c2 d1 d5
      obtain ⟨-, -, -, -, dRow, dCol, i1, i2, g1, g2, g3, g4⟩ :=
        C75_pair_ok w.env w.files _ cin inp inp' readRoi w.check left right c2 hinp d1 d2 (d5 rfl)
      refine ⟨left, dRow, dCol, by unfold searched; rw [hpe], rfl, g1, g2, g3, g4, ?_⟩
      rintro (hcase | ⟨ui, row, col, i, j, a, b, u1, u2, u3, u4, u5, u6, u7⟩)
      · exact absurd he' hcase
      · obtain ⟨c, x1, x2, -, -⟩ := checkInputSection_ok c2
        simp only [Bool.false_eq_true, if_false] at x2
        subst x2
        obtain ⟨uf, y1, y2, y3⟩ := input_section_get (getConfigInput_wf hw) x1 hinp (by rw [getConfigInput_get, u1]; rfl)
        rw [getConfigInput_get, u1, Option.some.injEq, J.obj.injEq] at y1
        subst y1
        exact ⟨const_of_user (y3 _ (by decide) (by decide)) u2 u4 u6 i1, const_of_user (y3 _ (by decide) (by decide)) u3 u5 u7 i2⟩
    · have he' : p0.get "estimation" ≠ none := fun e' => by have := hestN.2 (he.1 e'); simp at this
      obtain ⟨x, y, hxy⟩ := (hest he').1 left.img right.img sf
      obtain ⟨v, v1, v2⟩ := hestB rr rc sf rfl
      obtain ⟨-, -, -, -, -, -, -, -, -, -, -, -, g1, g2⟩ := buildEstimation_ranges v2
      have hs : ∃ L, searched w.run p left right.img = .ok L := by
        unfold searched
        rw [hpe]
        simp only [hxy]
        exact ⟨_, rfl⟩
      obtain ⟨L, hs⟩ := hs
      obtain ⟨a1, a2, a3⟩ := searched_ranges w.run p left L right.img rr rc sf x y hpe hxy hs
      exact ⟨L, _, _, hs, a1, by simp only; omega, by simp only; omega, a2, a3, fun _ => ⟨⟨_, rfl⟩, ⟨_, rfl⟩⟩⟩
  obtain ⟨L, dRow, dCol, l1, l2, l3, l4, l5, l6, l7⟩ := hL
  have hh : 0 < L.img.h := by rw [l2]; omega
  have hwd : 0 < L.img.w := by rw [l2]; omega
  have hpair : PairOk L right.img := ⟨hh, hwd, by rw [l2]; exact d4.1, by rw [l2]; exact d4.2, ranges_wf _ _ _ _ _ _ _ hh hwd l4 l6,
    ranges_wf _ _ _ _ _ _ _ hh hwd l3 l5⟩
  obtain ⟨s1, s2⟩ := short_callbacks (roi := readRoi) (mc := mc)
    (d := { (Run.Attrs.init : Run.Attrs K) with margins := refinementMargins m.data }) hpe l1 (by
      intro c off cost hs
      obtain ⟨-, q1, q2, q3⟩ := hmcB c off cost hs
      rcases q3 with ⟨a, b⟩ | q3
      · exact volumes_exist_step_one hpair q1 a b
      · obtain ⟨⟨x, hx⟩, y, hy⟩ := l7 q3
        exact volumes_exist_constant hpair q1 q2 (constant_of_config hx l5) (constant_of_config hy l6))
  generalize hS : shortSteps est mc = steps at hsteps s1 s2
  have hkeys : steps.map Prod.fst = p0.keys := by
    rw [hshape, ← hS]
    exact shortSteps_keys hestN hmcN
  have hrun : (Run.run w.run readRoi left right.img steps
      ⟨m.state, m.transitions, { (Run.Attrs.init : Run.Attrs K) with margins := refinementMargins m.data }⟩).2 = .ok none := by
    have e1 : m.state = (fresh (Run.Attrs.init : Run.Attrs K)).state := by rw [hm]; rfl
    have e2 : m.transitions = (fresh (Run.Attrs.init : Run.Attrs K)).transitions := by rw [hm]; rfl
    rw [e1, e2]
    obtain ⟨r1, -, r3⟩ := run_from_begin (runExec w.run readRoi) (prepare left right.img) steps
      { (Run.Attrs.init : Run.Attrs K) with margins := refinementMargins m.data }
    have hwf' : WellFormed ((steps.map Prod.fst).map stepOf) := by rw [hkeys, wellFormed_stepOf hwf]; exact hwf
    obtain ⟨r3, r4⟩ := r3 hwf'
    rw [s1] at r3
    unfold Run.run
    show (match runAll (runExec w.run readRoi) (prepare left right.img) steps
      (fresh { (Run.Attrs.init : Run.Attrs K) with margins := refinementMargins m.data }) with
      | (m', none) => (m', Except.ok m'.data.maps) | (m', some x) => (m', .error x)).2 = _
    cases hx : runAll (runExec w.run readRoi) (prepare left right.img) steps
      (fresh { (Run.Attrs.init : Run.Attrs K) with margins := refinementMargins m.data }) with
    | mk m' x =>
      rw [hx] at r3 r4
      simp only at r3 r4
      subst r3
      simp only [r4, s2]
      rfl
  -- the configuration
  have hpl1 : cfg1.get "pipeline" = some (.obj pl') := by rw [r2 _ (by decide)]; exact c8
  have hestKey : (∃ a b s, lookup steps "estimation" = .ok (.estimation a b s)) → p0.get "estimation" ≠ none := by
    rintro ⟨a, b, s, hl⟩ e'
    have := hestN.2 (he.1 e')
    subst this
    rw [← hS] at hl
    rcases mc with _ | ⟨c, off, cost⟩ <;> simp [lookup, shortSteps] at hl
  obtain ⟨cfg3, hcfg3⟩ := completed_forward (w := w) (steps := steps) (l := left.img) (r := right.img)
    (cfg := cfg1.set "input" (.obj inp')) (inp := inp') (pl := pl') (fun he => (hest (hestKey he)).1 left.img right.img)
    (by rw [Fields.get_set, if_pos rfl]) (by rw [Fields.get_set, if_neg (by decide)]; exact hpl1)
    (fun he => by
      obtain ⟨v, hv⟩ := Option.ne_none_iff_exists'.1 (hestKey he)
      obtain ⟨v', _, _, _, g, e1, rfl, -⟩ := hestv v hv
      exact ⟨g, e1⟩)
  have hlaunch : launch w m cfg = .ok ⟨none, readRoi, cfg3⟩ := by
    unfold launch
    simp only [item, c6, hinp, bind, Except.bind, asObj, hcol, hrow, hroi, hpl1, d1', d2, hsteps, hrun, hcfg3, pure, Except.pure]
  unfold Main.main
  simp only [h, hlaunch, saveMaps]

/-- A matching cost alone with a step of two columns and a ROI. -/
def exUserShort : Fields := dict [
  ("input", exInput (some (.int 0))),
  ("ROI", .obj (dict [("row", .obj (dict [("first", .int 1), ("last", .int 2)])), ("col", .obj (dict [("first", .int 0), ("last", .int 2)]))])),
  ("pipeline", .obj (dict [("matching_cost", .obj (dict [("matching_cost_method", .str "zncc"), ("window_size", .int 1),
      ("step", .arr (.cons (.int 1) (.cons (.int 2) .nil)))]))]))]

example : (Main.main exWorldI exUserShort).2 = none := by
  obtain ⟨m, cfg, h⟩ := accepted_ok (w := exWorldI) (user := exUserShort) (by decide +kernel)
  refine C81_without_disparity exWorldI exUserShort _ cfg m 5 3 1 2 0 2 ?_ exWorldI_contract rfl (by decide)
    (.inl ⟨_, rfl, _, _, _, _, _, _, _, rfl, rfl, rfl, rfl, rfl, rfl, rfl, .inl rfl, .inl rfl, .inl rfl, .inl rfl⟩) (by decide)
    (fun he => absurd rfl he) ?_ h
  · simp [exUserShort, exInput, dict, Fields.append, Fields.wf, J.wf, Fields.keys]
  · intro v hv
    have := (Option.some.inj hv).symm
    subst this
    exact ⟨_, 1, 2, rfl, .inl ⟨_, _, rfl, .inl rfl, .inl rfl⟩, .inr (.inr ⟨_, _, _, _, _, _, _, rfl, rfl, rfl, rfl, rfl, .inl rfl, .inl rfl⟩)⟩

end Verif.Props
