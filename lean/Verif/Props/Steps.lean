import Verif.Spec.Steps
import Verif.Props.Winner

/-!
# C89: the steps only choose the pixels
-/

namespace Verif.Props

open Verif Verif.Config Verif.Machine Verif.ImgTools Verif.MatchingCost Verif.Disparity Verif.Estimation Verif.Run Verif.Main Verif.Spec
  Verif.Save Verif.Statistics

set_option linter.unusedSectionVars false

variable {K : Type} [Field K] [LinearOrder K] [IsStrictOrderedRing K] [FloorRing K]

theorem F.le_antisymm' {a b : F K} (h1 : F.le a b = true) (h2 : F.le b a = true) : a = b := by
  cases a <;> cases b <;> simp_all [F.le]
  exact le_antisymm h1 h2

theorem IsBest.unique {m : Measure} {S : F K → Prop} {x y : F K} (hx : IsBest m S x) (hy : IsBest m S y) : x = y := by
  have h1 := hx.2 y hy.1
  have h2 := hy.2 x hx.1
  cases m
  · exact F.le_antisymm' h2 h1
  · exact F.le_antisymm' h1 h2

/-- The best pair of a pixel is unique. -/
theorem BestPair.unique {m : Measure} {asked : K → K → Prop} {cost : K → K → F K} {invalid r c s r' c' s' : F K}
    (h : BestPair m asked cost invalid r c s) (h' : BestPair m asked cost invalid r' c' s') : r = r' ∧ c = c' ∧ s = s' := by
  by_cases hex : ∃ dr dc, asked dr dc ∧ cost dr dc ≠ .nan
  · obtain rfl := IsBest.unique (h.best hex) (h'.best hex)
    obtain ⟨a, b, rfl, rfl, ⟨x, x1, x2⟩, ⟨y, y1, y2⟩, g⟩ := h.smallest hex
    obtain ⟨a', b', rfl, rfl, ⟨x', x1', x2'⟩, ⟨y', y1', y2'⟩, g'⟩ := h'.smallest hex
    have e1 : a = a' := le_antisymm (g _ _ x1' x2').1 (g' _ _ x1 x2).1
    have e2 : b = b' := le_antisymm (g _ _ y1' y2').2 (g' _ _ y1 y2).2
    rw [e1, e2]
    exact ⟨rfl, rfl, rfl⟩
  · push Not at hex
    obtain ⟨rfl, rfl, rfl⟩ := h.invalid hex
    obtain ⟨rfl, rfl, rfl⟩ := h'.invalid hex
    exact ⟨rfl, rfl, rfl⟩

/-- The margins recorded by the check of a pipeline which stops at the disparity maps. -/
theorem recorded_margins {w : World K} {user p0 pl' mc : Fields} {m : Mach (Machine.Attrs J Margins)} (hw : user.wf)
    (hu : user.get "pipeline" = some (.obj p0)) (hd : "disparity" ∈ p0.keys)
    (h : checkPipelineJ w.steps user (fresh .init) = (m, .ok (.cons "pipeline" (.obj pl') .nil))) (href : p0.get "refinement" = none)
    (hmc : p0.get "matching_cost" = some (.obj mc)) {mar : Margins} (hmar : MarginsAre w mc mar) :
    m.data.cumulative = [("matching_cost", mar), ("disparity", ⟨0, 0, 0, 0⟩)] ∧ m.data.nonCumulative = [] := by
  obtain ⟨hwf, -, hn, hm, -⟩ := pipeline_new w.steps user p0 pl' m hw hu h
  have hpw : p0.wf := Fields.wf_get user hw hu
  have hnd : p0.keys.Nodup := Fields.wf_keys p0 hpw
  obtain ⟨cm, st, wn, hmar⟩ := hmar
  have hlook : ∀ k x, lookup (toPipeline p0.convAll) k = .ok x → ∃ y, p0.get k = some y ∧ x = y.convAll := by
    intro k x hx
    have := (toPipeline_mem _ (by rw [Fields.keys_convAll]; exact hnd) _ _).1 (lookup_ok hx)
    rw [Fields.get_convAll, Option.map_eq_some_iff] at this
    obtain ⟨y, hy, e⟩ := this
    exact ⟨y, hy, e.symm⟩
  have core : ∀ d : Machine.Attrs J Margins, d.cumulative = [] → d.nonCumulative = [] →
      (runCallbacks (checkExec w.steps) (toPipeline p0.convAll) (checkPlan ["matching_cost", "disparity"]) d).2 = none →
      (runCallbacks (checkExec w.steps) (toPipeline p0.convAll) (checkPlan ["matching_cost", "disparity"]) d).1.cumulative =
        [("matching_cost", mar), ("disparity", ⟨0, 0, 0, 0⟩)] ∧
      (runCallbacks (checkExec w.steps) (toPipeline p0.convAll) (checkPlan ["matching_cost", "disparity"]) d).1.nonCumulative = [] := by
    intro d hc hnc h0
    have e : checkPlan ["matching_cost", "disparity"] = [(.matchingCostCheck, "matching_cost"), (.disparityCheck, "disparity")] := rfl
    rw [e] at h0 ⊢
    obtain ⟨d1, a1, b1⟩ := runCallbacks_step h0
    rw [b1] at h0 ⊢
    obtain ⟨d2, a2, b2⟩ := runCallbacks_step h0
    rw [b2] at h0 ⊢
    simp only [runCallbacks]
    simp only [checkExec] at a1 a2
    split at a1
    · simp at a1
    rename_i c' st' wn' mar' h1
    split at a2
    · simp at a2
    rename_i cd md h2
    obtain ⟨vm, l1, h1⟩ := bind_eq_ok h1
    obtain ⟨vd, l2, h2⟩ := bind_eq_ok h2
    obtain ⟨y, hy, rfl⟩ := hlook _ _ l1
    rw [hmc, Option.some.injEq] at hy
    subst hy
    have h1 : matchingCostCheck w.pandora (J.obj mc).convAll = .ok (c', st', wn', mar') := h1
    rw [hmar, Except.ok.injEq, Prod.mk.injEq, Prod.mk.injEq, Prod.mk.injEq] at h1
    obtain ⟨-, -, -, rfl⟩ := h1
    simp only [World.steps, stepsOf, Except.map] at h2
    split at h2
    · simp at h2
    simp only [Except.ok.injEq, Prod.mk.injEq] at h2
    obtain ⟨-, rfl⟩ := h2
    simp only [Prod.mk.injEq, and_true] at a1 a2
    subst a1
    subst a2
    exact ⟨by simp [dictSet, hc], hnc⟩
  obtain ⟨e, hk | hk | hk | hk⟩ := wellFormed_cases hwf hnd
  · rw [hk] at hd; cases e <;> simp at hd
  · rw [hk] at hd; cases e <;> simp at hd
  · rw [hk] at hm hn
    cases e with
    | false =>
      simp only [Bool.false_eq_true, if_false, List.nil_append] at hm hn
      rw [hm]
      exact core .init rfl rfl hn
    | true =>
      simp only [if_true, List.cons_append, List.nil_append] at hm hn
      have e : checkPlan ["estimation", "matching_cost", "disparity"] =
        (.estimationCheck, "estimation") :: checkPlan ["matching_cost", "disparity"] := rfl
      rw [e] at hm hn
      obtain ⟨d1, a1, b1⟩ := runCallbacks_step hn
      rw [b1] at hm hn
      rw [hm]
      simp only [checkExec] at a1
      split at a1
      · simp at a1
      simp only [Prod.mk.injEq, and_true] at a1
      subst a1
      exact core _ rfl rfl hn
  · rw [Fields.get_eq_none, hk] at href
    cases e <;> simp at href

theorem same_roi {w : World K} {a a' : Machine.Attrs J Margins} {cfg cfg' cfg1 cfg1' : Fields} {col row : J} {x y x' y' : Option Roi}
    (hr : cfg.get "ROI" = cfg'.get "ROI") (h1 : a.cumulative = a'.cumulative) (h2 : a.nonCumulative = a'.nonCumulative)
    (h : roiStep w a cfg col row = .ok (cfg1, x, y)) (h' : roiStep w a' cfg' col row = .ok (cfg1', x', y')) : x = x' := by
  unfold roiStep at h h'
  rw [hr, h1, h2] at h
  cases hv : cfg'.get "ROI" with
  | none =>
    rw [hv] at h h'
    simp only [Except.ok.injEq, Prod.mk.injEq] at h h'
    rw [← h.2.1, ← h'.2.1]
  | some v =>
    rw [hv] at h h'
    simp only at h h'
    obtain ⟨R, e1, h⟩ := bind_eq_ok h
    obtain ⟨c, e2, h⟩ := bind_eq_ok h
    obtain ⟨r, e3, h⟩ := bind_eq_ok h
    obtain ⟨o, e4, h⟩ := bind_eq_ok h
    obtain ⟨f, e5, h⟩ := bind_eq_ok h
    obtain ⟨R', e1', h'⟩ := bind_eq_ok h'
    obtain ⟨c', e2', h'⟩ := bind_eq_ok h'
    obtain ⟨r', e3', h'⟩ := bind_eq_ok h'
    obtain ⟨o', e4', h'⟩ := bind_eq_ok h'
    obtain ⟨f', e5', h'⟩ := bind_eq_ok h'
    simp only [pure, Except.pure, Except.ok.injEq, Prod.mk.injEq] at h h'
    rw [← h.2.1, ← h'.2.1]
    simp_all

section
variable {w : World K} {user user' p0 p0' mc mc' : Fields} {out out' : List (Written K)} {H W : Nat} {rf rl cf cl : Int} {n : Nat}
  {me : Measure} {pc : Pandora.Cost K}

/-- The estimation of the run is that of the section of the user. -/
theorem Stages.estimation_eq (s : Stages w user p0 out) (s' : Stages w user' p0' out') (hw : user.wf) (hw' : user'.wf)
    (hu : user.get "pipeline" = some (.obj p0)) (hu' : user'.get "pipeline" = some (.obj p0'))
    (he : p0.get "estimation" = p0'.get "estimation") : s.plan.estimation = s'.plan.estimation := by
  obtain ⟨-, -, -, -, hg⟩ := pipeline_new w.steps user p0 s.pl s.m hw hu s.pipeline
  obtain ⟨-, -, -, -, hg'⟩ := pipeline_new w.steps user' p0' s'.pl s'.m hw' hu' s'.pipeline
  cases hp : p0.get "estimation" with
  | none =>
    rw [s.reads.estimation.1 hp, s'.reads.estimation.1 (he ▸ hp)]
  | some v =>
    obtain ⟨c, v1, a1, -, a2, a3⟩ := hg _ _ hp
    obtain ⟨c', v1', a1', -, a2', a3'⟩ := hg' _ _ (he ▸ hp)
    simp only [Checked, String.reduceEq, false_and, true_and, or_false] at a1 a1'
    rw [a1, Except.ok.injEq] at a1'
    subst a1'
    rw [a2, Except.ok.injEq] at a2'
    subst a2'
    cases hx : s.plan.estimation with
    | none =>
      have := s.reads.estimation.2 hx
      rw [hp] at this; simp at this
    | some x =>
      cases hy : s'.plan.estimation with
      | none =>
        have := s'.reads.estimation.2 hy
        rw [← he, hp] at this; simp at this
      | some y =>
        obtain ⟨v2, b1, b2⟩ := s.reads.estimated x.1 x.2.1 x.2.2 hx
        obtain ⟨v3, b1', b2'⟩ := s'.reads.estimated y.1 y.2.1 y.2.2 hy
        rw [a3, Option.some.injEq] at b1
        rw [a3', Option.some.injEq] at b1'
        subst b1 b1'
        rw [b2, Except.ok.injEq, StepCfg.estimation.injEq] at b2'
        obtain ⟨e1, e2, e3⟩ := b2'
        rw [Option.some.injEq]
        exact Prod.ext e1 (Prod.ext e2 e3)

/-- The same images are read. -/
theorem Stages.same_images (s : Stages w user p0 out) (s' : Stages w user' p0' out') (hw : user.wf) (hw' : user'.wf)
    (hu : user.get "pipeline" = some (.obj p0)) (hu' : user'.get "pipeline" = some (.obj p0'))
    (hmc : p0.get "matching_cost" = some (.obj mc)) (hmc' : p0'.get "matching_cost" = some (.obj mc'))
    (hd : "disparity" ∈ p0.keys) (hd' : "disparity" ∈ p0'.keys) (h : SameMatching w user user' p0 p0' mc mc' n me pc) :
    s.inp = s'.inp ∧ s.roi = s'.roi ∧ s.left = s'.left ∧ s.right = s'.right := by
  obtain ⟨mar, m1, m2⟩ := h.margins
  obtain ⟨c1, c2⟩ := recorded_margins hw hu hd s.pipeline h.same.noRefinement.1 hmc m1
  obtain ⟨c1', c2'⟩ := recorded_margins hw' hu' hd' s'.pipeline h.same.noRefinement.2 hmc' m2
  have hin := s.input
  have hin' := s'.input
  have hg : getConfigInput user = getConfigInput user' := by unfold getConfigInput; rw [h.same.input]
  have hge : givesEstimation p0 = givesEstimation p0' := by unfold givesEstimation; rw [h.estimation]
  rw [hg, hge, hin', Except.ok.injEq] at hin
  have hi := s.inputIs
  rw [← hin, s'.inputIs, Option.some.injEq, J.obj.injEq] at hi
  obtain ⟨-, -, -, -, -, -, -, -, -, r1, -⟩ := checkConf_gets _ _ _ _ _ _ hw s.checkedAll
  obtain ⟨-, -, -, -, -, -, -, -, -, r1', -⟩ := checkConf_gets _ _ _ _ _ _ hw' s'.checkedAll
  obtain ⟨col, row, k1, k2, k3⟩ := s.roiIs
  obtain ⟨col', row', k1', k2', k3'⟩ := s'.roiIs
  rw [← hi] at k1 k2
  rw [k1, Option.some.injEq] at k1'
  rw [k2, Option.some.injEq] at k2'
  subst k1' k2'
  have hroi : s.roi = s'.roi := same_roi (by rw [r1, r1', h.roi]) (by rw [c1, c1']) (by rw [c2, c2']) k3 k3'
  obtain ⟨-, hk, -⟩ := pipeline_new w.steps user p0 s.pl s.m hw hu s.pipeline
  obtain ⟨-, hk', -⟩ := pipeline_new w.steps user' p0' s'.pl s'.m hw' hu' s'.pipeline
  have hest : (s.pl.get "estimation").isSome = (s'.pl.get "estimation").isSome := by
    have : ∀ {p q : Fields}, p.keys = q.keys → (p.get "estimation").isSome = (q.get "estimation").isSome := by
      intro p q e
      rw [Bool.eq_iff_iff, Fields.get_isSome, Fields.get_isSome, e]
    rw [this hk, this hk', h.estimation]
  have hds := s.datasets
  have hds' := s'.datasets
  rw [← hi, hroi, hest, hds', Except.ok.injEq, Prod.mk.injEq, Prod.mk.injEq] at hds
  exact ⟨hi.symm, hroi, hds.2.1.symm, hds.2.2.symm⟩

end

/-- C89. Two successful executions without refinement on the same images, disparities, region and estimation, whose matching costs have
the same subpixel factor, measure, cost and margins, and with the same invalid value: whatever the steps, the three rasters hold the same
values at the pixels they share. -/
theorem C89_steps_only_choose (w : World K) (user user' p0 p0' mc mc' disp disp' : Fields) (out out' : List (Written K)) (H W : Nat)
    (rf rl cf cl : Int) (sr sc sr' sc' : Nat) (invalid : F K) (n : Nat) (me : Measure) (pc : Pandora.Cost K) (hw : user.wf) (hw' : user'.wf)
    (hdisk : DiskContract w H W) (hpan : PandoraContract w) (hkeeps : PandoraKeeps w.pandora)
    (hu : user.get "pipeline" = some (.obj p0)) (hu' : user'.get "pipeline" = some (.obj p0'))
    (hmc : p0.get "matching_cost" = some (.obj mc)) (hmc' : p0'.get "matching_cost" = some (.obj mc'))
    (hdi : p0.get "disparity" = some (.obj disp)) (hdi' : p0'.get "disparity" = some (.obj disp'))
    (same : SameMatching w user user' p0 p0' mc mc' n me pc) (hst : StepIs mc sr sc) (hst' : StepIs mc' sr' sc')
    (hinv : InvalidIs disp invalid) (hinv' : InvalidIs disp' invalid)
    (hz : ZoneIs user H W rf rl cf cl) (hl : rl < H ∧ cl < W)
    (h : Main.main w user = (out, none)) (h' : Main.main w user' = (out', none)) :
    ∃ files rest files' rest', out = .rasters files :: rest ∧ out' = .rasters files' :: rest' ∧
      AgreeOnCommon files files' sr sc sr' sc' := by
  have hd : "disparity" ∈ p0.keys := (Fields.get_isSome p0 _).1 (by rw [hdi]; rfl)
  have hd' : "disparity" ∈ p0'.keys := (Fields.get_isSome p0' _).1 (by rw [hdi']; rfl)
  obtain ⟨s⟩ := main_stages w user p0 out hw hpan hu hd h
  obtain ⟨s'⟩ := main_stages w user' p0' out' hw' hpan hu' hd' h'
  have hz' : ZoneIs user' H W rf rl cf cl := by
    unfold ZoneIs at hz ⊢
    rw [← same.roi]
    exact hz
  obtain ⟨hi, hroi, hL, hR⟩ := s.same_images s' hw hw' hu hu' hmc hmc' hd hd' same
  have hest := s.estimation_eq s' hw hw' hu hu' same.estimation
  obtain ⟨-, dRow, dCol, gmin, gmax, -, i1, -, -, -, -, ⟨M, g1, g2, g3⟩, -, i7, i6⟩ :=
    s.winner hdisk hkeeps hw hu hz hl same.same.noRefinement.1 hmc same.same.matcher.1
  obtain ⟨-, dRow', dCol', gmin', gmax', -, i1', -, -, -, -, ⟨M', g1', g2', g3'⟩, -, i7', i6'⟩ :=
    s'.winner hdisk hkeeps hw' hu' hz' hl same.same.noRefinement.2 hmc' same.same.matcher.2
  have hdisp : dRow = dRow' ∧ dCol = dCol' := by
    cases he : s.plan.estimation with
    | none =>
      obtain ⟨j1, j2⟩ := i1 (s.reads.estimation.2 he)
      obtain ⟨j1', j2'⟩ := i1' (s'.reads.estimation.2 (hest ▸ he))
      rw [← hi] at j1' j2'
      exact ⟨IsDisp.unique j1 j1', IsDisp.unique j2 j2'⟩
    | some x =>
      obtain ⟨a, b, j1, j2, j3⟩ := i7 x.1 x.2.1 x.2.2 he
      obtain ⟨a', b', j1', j2', j3'⟩ := i7' x.1 x.2.1 x.2.2 (hest ▸ he)
      rw [hL, hR, j1', Prod.mk.injEq, F.fin.injEq, F.fin.injEq] at j1
      rw [j2, j3, j2', j3', j1.1, j1.2]
      exact ⟨rfl, rfl⟩
  obtain ⟨rfl, rfl⟩ := hdisp
  rw [hL, g1', Except.ok.injEq] at g1
  subst g1
  subst g2 g3 g2' g3'
  obtain ⟨mc1, m1, m2⟩ := s.reads.matching
  rw [hmc, Option.some.injEq, J.obj.injEq] at m1
  subst m1
  obtain ⟨rfl, rfl⟩ := StepIs.unique hst m2
  obtain ⟨mc2, m1', m2'⟩ := s'.reads.matching
  rw [hmc', Option.some.injEq, J.obj.injEq] at m1'
  subst m1'
  obtain ⟨rfl, rfl⟩ := StepIs.unique hst' m2'
  obtain ⟨d1, n1, n2⟩ := s.reads.disparity
  rw [hdi, Option.some.injEq, J.obj.injEq] at n1
  subst n1
  obtain rfl := InvalidIs.unique hinv n2
  obtain ⟨d2, n1', n2'⟩ := s'.reads.disparity
  rw [hdi', Option.some.injEq, J.obj.injEq] at n1'
  subst n1'
  have hinv2 := InvalidIs.unique hinv' n2'
  refine ⟨s.files, _, s'.files, _, s.outIs, s'.outIs, fun i j i' j' h1 h2 h1' h2' e1 e2 => ?_⟩
  have e1' : rf + (i : Int) * s.plan.cfg.stepRow = rf + (i' : Int) * s'.plan.cfg.stepRow := by
    have : (i : Int) * s.plan.cfg.stepRow = (i' : Int) * s'.plan.cfg.stepRow := by exact_mod_cast e1
    rw [this]
  have e2' : cf + (j : Int) * s.plan.cfg.stepCol = cf + (j' : Int) * s'.plan.cfg.stepCol := by
    have : (j : Int) * s.plan.cfg.stepCol = (j' : Int) * s'.plan.cfg.stepCol := by exact_mod_cast e2
    rw [this]
  have key := (i6 i h1 j h2).2
  have key' := (i6' i' h1' j' h2').2
  rw [hL, hR, e1', e2'] at key
  rw [← hinv2] at key'
  exact BestPair.unique key key'

/-! ### Non-vacuity -/

theorem exUserWith_wf (sr sc : Int) (e : Option J) (i : Option J) (he : e = none ∨ e = some exEst) (hi : i = none ∨ i = some (.int 0)) :
    (exUserWith e sr sc none i).wf := by
  rcases he with rfl | rfl <;> rcases hi with rfl | rfl <;>
    simp [exUserWith, exInput, exPipeline, exEst, dict, Fields.append, Fields.wf, J.wf, Fields.keys]

/-- The hypotheses of C89 hold for steps of one and of two rows. -/
example := C89_steps_only_choose exWorldI (exUserWith none 1 1 none (some (.int 0))) (exUserWith none 2 1 none (some (.int 0))) _ _ _ _ _ _ _ _
    5 3 1 2 0 2 1 1 2 1 .nan 1 .min _ (exUserWith_wf _ _ _ _ (.inl rfl) (.inr rfl)) (exUserWith_wf _ _ _ _ (.inl rfl) (.inr rfl))
    exWorldI_contract.disk exWorldI_contract.pandora exWorldI_contract.keeps rfl rfl rfl rfl rfl rfl
    ⟨⟨rfl, ⟨rfl, rfl⟩, ⟨_, _, _, _, _, _, rfl, rfl, rfl, .inl rfl, rfl, rfl⟩, ⟨_, _, _, _, _, _, rfl, rfl, rfl, .inl rfl, rfl, rfl⟩⟩, rfl, rfl,
      ⟨_, ⟨_, _, _, rfl⟩, ⟨_, _, _, rfl⟩⟩⟩
    (.inl ⟨_, _, rfl, .inl rfl, .inl rfl⟩) (.inl ⟨_, _, rfl, .inl rfl, .inl rfl⟩)
    (.inl ⟨_, rfl, .inr (.inr (.inl ⟨rfl, rfl⟩))⟩) (.inl ⟨_, rfl, .inr (.inr (.inl ⟨rfl, rfl⟩))⟩) (exZone _ _ _ _ _) (by decide)
    (show _ = ((Main.main exWorldI (exUserWith none 1 1 none (some (.int 0)))).1, none) by
      have : (Main.main exWorldI (exUserWith none 1 1 none (some (.int 0)))).2 = none := by decide +kernel
      rw [← this])
    (show _ = ((Main.main exWorldI (exUserWith none 2 1 none (some (.int 0)))).1, none) by
      have : (Main.main exWorldI (exUserWith none 2 1 none (some (.int 0)))).2 = none := by decide +kernel
      rw [← this])

/-- They hold with an estimation. -/
example := C89_steps_only_choose exWorldI (exUserWith (some exEst) 1 1 none none) (exUserWith (some exEst) 1 2 none none) _ _ _ _ _ _ _ _
    5 3 1 2 0 2 1 1 1 2 .nan 1 .min _ (exUserWith_wf _ _ _ _ (.inr rfl) (.inl rfl)) (exUserWith_wf _ _ _ _ (.inr rfl) (.inl rfl))
    exWorldI_contract.disk exWorldI_contract.pandora exWorldI_contract.keeps rfl rfl rfl rfl rfl rfl
    ⟨⟨rfl, ⟨rfl, rfl⟩, ⟨_, _, _, _, _, _, rfl, rfl, rfl, .inl rfl, rfl, rfl⟩, ⟨_, _, _, _, _, _, rfl, rfl, rfl, .inl rfl, rfl, rfl⟩⟩, rfl, rfl,
      ⟨_, ⟨_, _, _, rfl⟩, ⟨_, _, _, rfl⟩⟩⟩
    (.inl ⟨_, _, rfl, .inl rfl, .inl rfl⟩) (.inl ⟨_, _, rfl, .inl rfl, .inl rfl⟩)
    (.inl ⟨_, rfl, .inr (.inr (.inl ⟨rfl, rfl⟩))⟩) (.inl ⟨_, rfl, .inr (.inr (.inl ⟨rfl, rfl⟩))⟩) (exZone _ _ _ _ _) (by decide)
    (show _ = ((Main.main exWorldI (exUserWith (some exEst) 1 1 none none)).1, none) by
      have : (Main.main exWorldI (exUserWith (some exEst) 1 1 none none)).2 = none := by decide +kernel
      rw [← this])
    (show _ = ((Main.main exWorldI (exUserWith (some exEst) 1 2 none none)).1, none) by
      have : (Main.main exWorldI (exUserWith (some exEst) 1 2 none none)).2 = none := by decide +kernel
      rw [← this])

end Verif.Props
