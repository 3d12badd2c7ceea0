import Verif.Spec.Estimated
import Verif.Props.Refined
import Verif.Props.Completes
import Verif.Props.Wider
import Verif.Props.AcceptedExample
import Verif.Lemmas.JsonAgain

/-!
# C102: an estimation is the same as giving its result
-/

namespace Verif.Props

open Verif Verif.Config Verif.Machine Verif.ImgTools Verif.MatchingCost Verif.Disparity Verif.Estimation Verif.Run Verif.Main Verif.Spec
  Verif.Save Verif.Statistics

set_option linter.unusedSectionVars false

variable {K : Type} [Field K] [LinearOrder K] [IsStrictOrderedRing K] [FloorRing K]

theorem RangeIs.unique {f : Fields} {k : String} {a b : Int} (h : RangeIs f k a) (h' : RangeIs f k b) : a = b := by
  rcases h with ⟨v, e, h⟩ | ⟨e, rfl⟩ <;> rcases h' with ⟨v', e', h'⟩ | ⟨e', rfl⟩
  · rw [e, Option.some.injEq] at e'
    subst e'
    exact IsInt.unique h h'
  · rw [e] at e'; simp at e'
  · rw [e] at e'; simp at e'
  · rfl

theorem SampleIs.unique {f : Fields} {a b : Nat} (h : SampleIs f a) (h' : SampleIs f b) : a = b := by
  rcases h with ⟨v, e, h⟩ | ⟨e, rfl⟩ <;> rcases h' with ⟨v', e', h'⟩ | ⟨e', rfl⟩
  · rw [e, Option.some.injEq] at e'
    subst e'
    exact_mod_cast IsInt.unique h h'
  · rw [e] at e'; simp at e'
  · rw [e] at e'; simp at e'
  · rfl

theorem estimation_sample (bi : Bool) (f g : Fields) (h : estimationCheck bi (.obj f) = .ok (.obj g)) :
    ∃ v i, g.get "sample_factor" = some v ∧ IsInt bi v i := by
  simp only [estimationCheck] at h
  split at h
  · simp at h
  · split_ifs at h with h1 h2
    have hg := J.obj.inj (Except.ok.inj h)
    subst hg
    unfold estimationSchema at h2
    rw [dictOf_iff] at h2
    have : ∃ v, (fillEstimation f).get "sample_factor" = some v ∧
        intAnd bi (fun x => (decide (x % 10 = 0) || decide (x = 1)) && decide (0 < x)) v = true :=
      h2.2 _ (List.mem_cons_of_mem _ (List.mem_cons_of_mem _ (List.mem_cons_of_mem _ List.mem_cons_self)))
    obtain ⟨v, hv, hi⟩ := this
    rw [intAnd_iff] at hi
    obtain ⟨i, hi, -⟩ := hi
    exact ⟨v, i, hv, hi⟩
  · simp at h

/-- The sample factor of the estimation section which the run reads. -/
theorem est_sample {w : World K} {v c v' : J} {rr rc : Int} {sf : Nat} (hw : v.wf)
    (hc : Checked w.steps "estimation" v.convAll c) (hu : updateVal (some v.convAll) c = .ok v')
    (hb : buildEstimation w v' = .ok (.estimation rr rc sf)) :
    ∃ f, v = .obj f ∧ SampleIs f sf := by
  simp only [Checked, String.reduceEq, false_and, true_and, or_false] at hc
  have hc' : estimationCheck w.env.boolIsInt v.convAll = .ok c := by
    simpa only [World.steps, stepsOf] using hc
  have inv : ∃ f, v.convAll = .obj f ∧ c = .obj (fillEstimation f) := by
    cases hv : v.convAll with
    | obj f =>
      rw [hv] at hc'
      simp only [estimationCheck] at hc'
      split at hc'
      · simp at hc'
      · split_ifs at hc'
        exact ⟨f, rfl, (Except.ok.inj hc').symm⟩
      · simp at hc'
    | _ => rw [hv] at hc'; simp [estimationCheck] at hc'
  obtain ⟨fc, h1, rfl⟩ := inv
  rw [h1] at hc'
  obtain ⟨f, rfl, rfl⟩ := convAll_eq_obj h1
  obtain ⟨g', rfl, hg'⟩ := updateVal_obj hu
  obtain ⟨g2, a, b, x, e, -, -, -, hx, -, -, hn, -, -⟩ := buildEstimation_ranges hb
  simp only [J.obj.injEq] at e
  subst e
  have hnod : (fillEstimation f.convAll).keys.Nodup := by
    unfold fillEstimation
    have : f.convAll.keys.Nodup := by rw [Fields.keys_convAll]; exact Fields.wf_keys f hw
    exact Fields.keys_setDefault_nodup _ _ _ (Fields.keys_setDefault_nodup _ _ _ (Fields.keys_setDefault_nodup _ _ _ this))
  refine ⟨f, rfl, ?_⟩
  obtain ⟨y, i, y1, y2⟩ := estimation_sample _ _ _ hc'
  have y2 := isInt_true y2
  have hl : conv y = y ∧ y.isLeaf = true := by
    rcases y2 with rfl | ⟨-, ⟨rfl, -⟩ | ⟨rfl, -⟩⟩ <;> exact ⟨rfl, rfl⟩
  have hgy : g'.get "sample_factor" = some y := by rw [merged_leaf hnod hg' y1 hl.2, hl.1]
  rw [fillEstimation_keeps hgy, Option.some.injEq] at hx
  subst hx
  cases hf : f.get "sample_factor" with
  | none =>
    have hf' : f.convAll.get "sample_factor" = none := by rw [Fields.get_convAll, hf]; rfl
    right
    refine ⟨hf, ?_⟩
    have : y = .int 1 := by
      simp [fillEstimation, Fields.get_setDefault, hf'] at y1
      exact y1.symm
    subst this
    exact_mod_cast IsInt.unique hn (Or.inl rfl)
  | some u =>
    have hf' : f.convAll.get "sample_factor" = some u.convAll := by rw [Fields.get_convAll, hf]; rfl
    left
    refine ⟨u, hf, ?_⟩
    rw [fillEstimation_keeps hf', Option.some.injEq] at y1
    rw [← y1] at hn
    exact isInt_convAll.1 hn

section
variable {w : World K} {user user' p0 p0' : Fields} {out out' : List (Written K)}

/-- The section of an image, completed, does not depend on the estimation. -/
theorem side_completed {inp : Fields} (s : Stages w user p0 out) (hw : user.wf)
    (hi : user.get "input" = some (.obj inp)) {side : String} (hside : side = "left" ∨ side = "right") {v : J} (hv : inp.get side = some v) :
    ∃ v', updateVal ((Verif.Props.mk [("left", .obj (Verif.Props.mk [("nodata", .int (-9999)), ("mask", .null)])),
      ("right", .obj (Verif.Props.mk [("nodata", .int (-9999)), ("mask", .null)]))]).get side) v = .ok v' ∧ s.inp.get side = some v' := by
  obtain ⟨c, c1, c2, -, -⟩ := checkInputSection_ok s.input
  have hwi := getConfigInput_wf hw
  have hgi : (getConfigInput user).get "input" = some (.obj inp) := by rw [getConfigInput_get]; exact hi
  split_ifs at c2
  · have cwf : c.wf := updateConf_wf _ _ _ hwi defaultInput_wf c1
    have cn : c.normal := updateConf_normal _ _ _ hwi defaultInput_wf defaultInput_normal c1
    obtain ⟨x, x1, x2⟩ := (updateConf_get _ defaultInput c (Fields.wf_keys _ hwi) c1 "input").2 _ hgi
    have hx : ∃ ci, x = .obj ci := by
      have hdef : defaultInput.get "input" = some (.obj (Verif.Props.mk [("left", .obj (Verif.Props.mk [("nodata", .int (-9999)), ("mask", .null)])),
        ("right", .obj (Verif.Props.mk [("nodata", .int (-9999)), ("mask", .null)]))])) := rfl
      rw [hdef] at x1
      simp only [updateVal] at x1
      generalize Verif.Props.mk [("left", .obj (Verif.Props.mk [("nodata", .int (-9999)), ("mask", .null)])),
        ("right", .obj (Verif.Props.mk [("nodata", .int (-9999)), ("mask", .null)]))] = df at x1
      cases hup : updateConf df inp with
      | error e => rw [hup] at x1; simp [Except.map] at x1
      | ok g =>
        rw [hup] at x1
        simp only [Except.map, Except.ok.injEq] at x1
        exact ⟨g, x1.symm⟩
    obtain ⟨ci, rfl⟩ := hx
    obtain ⟨v', y1, y2⟩ := input_side hwi c1 x2 hgi hv
    refine ⟨v', y1, ?_⟩
    obtain ⟨z, z1, z2⟩ := (updateConf_get _ defaultDisp s.cin (Fields.wf_keys _ cwf) c2 "input").2 _ x2
    rw [s.inputIs, Option.some.injEq] at z2
    subst z2
    have ciwf : ci.wf := Fields.wf_get c cwf x2
    have cin : ci.normal := by
      have := Fields.normal_get c cn x2
      simpa only [J.normal] using this
    have hdd : defaultDisp.get "input" = some (.obj (Verif.Props.mk [("col_disparity", .obj (Verif.Props.mk [("init", .int (-9997)), ("range", .int 2)])),
        ("row_disparity", .obj (Verif.Props.mk [("init", .int (-9997)), ("range", .int 2)]))])) := rfl
    have hnone : (Verif.Props.mk [("col_disparity", .obj (Verif.Props.mk [("init", .int (-9997)), ("range", .int 2)])),
        ("row_disparity", .obj (Verif.Props.mk [("init", .int (-9997)), ("range", .int 2)]))]).get side = none := by
      rcases hside with rfl | rfl <;> rfl
    rw [hdd] at z1
    simp only [updateVal] at z1
    generalize Verif.Props.mk [("col_disparity", .obj (Verif.Props.mk [("init", .int (-9997)), ("range", .int 2)])),
        ("row_disparity", .obj (Verif.Props.mk [("init", .int (-9997)), ("range", .int 2)]))] = df at z1 hnone
    cases hup : updateConf df ci with
    | error e => rw [hup] at z1; simp [Except.map] at z1
    | ok g =>
      rw [hup] at z1
      simp only [Except.map, Except.ok.injEq, J.obj.injEq] at z1
      subst z1
      obtain ⟨u, u1, u2⟩ := (updateConf_get ci df _ (Fields.wf_keys ci ciwf) hup side).2 _ y2
      have v'wf : v'.wf := Fields.wf_get ci ciwf y2
      have v'n : v'.normal := Fields.normal_get ci cin y2
      rw [hnone, updateVal_none v' v'wf, convAll_of_normal v' v'n, Except.ok.injEq] at u1
      rw [u2, u1]
  · subst c2
    exact input_side hwi c1 s.inputIs hgi hv

/-- Two executions on the same sections of full images read the same images. -/
theorem same_read {inp inp' : Fields} (s : Stages w user p0 out) (s' : Stages w user' p0' out') (wf : user.wf) (wf' : user'.wf)
    (hi : user.get "input" = some (.obj inp)) (hi' : user'.get "input" = some (.obj inp')) {l r : J}
    (hl : inp.get "left" = some l ∧ inp'.get "left" = some l) (hr : inp.get "right" = some r ∧ inp'.get "right" = some r)
    (hf : user.get "ROI" = none) (hf' : user'.get "ROI" = none) :
    (s.roi = none ∧ s'.roi = none) ∧ s'.left.img = s.left.img ∧ s'.right.img = s.right.img ∧ s'.leftJ = s.leftJ := by
  have hnone : ∀ {u p : Fields} {o : List (Written K)} (t : Stages w u p o), u.get "ROI" = none → t.roi = none := by
    intro u p o t hR
    have r1 := t.roiFor
    cases hx : t.roi with
    | none => rfl
    | some R =>
      rw [hx] at r1
      obtain ⟨v, hv, -⟩ := r1
      rw [hR] at hv; simp at hv
  have n1 := hnone s hf
  have n2 := hnone s' hf'
  obtain ⟨a, a1, a2⟩ := side_completed s wf hi (Or.inl rfl) hl.1
  obtain ⟨a', a1', a2'⟩ := side_completed s' wf' hi' (Or.inl rfl) hl.2
  obtain ⟨b, b1, b2⟩ := side_completed s wf hi (Or.inr rfl) hr.1
  obtain ⟨b', b1', b2'⟩ := side_completed s' wf' hi' (Or.inr rfl) hr.2
  rw [a1, Except.ok.injEq] at a1'
  rw [b1, Except.ok.injEq] at b1'
  subst a1' b1'
  obtain ⟨-, -, lj, rj, l1, l2, l3, l4⟩ := created_input s.datasets
  obtain ⟨-, -, lj', rj', l1', l2', l3', l4'⟩ := created_input s'.datasets
  rw [a2, Option.some.injEq] at l1
  rw [a2', Option.some.injEq] at l1'
  rw [b2, Option.some.injEq] at l2
  rw [b2', Option.some.injEq] at l2'
  subst l1 l1' l2 l2'
  rw [n1] at l3 l4
  rw [n2, l3, Except.ok.injEq] at l3'
  rw [n2, l4, Except.ok.injEq] at l4'
  have j1 := s.leftIs
  have j2 := s'.leftIs
  rw [a2, Option.some.injEq] at j1
  rw [a2', Option.some.injEq] at j2
  exact ⟨⟨n1, n2⟩, l3'.symm, l4'.symm, j2.symm.trans j1⟩

/-- Two executions with the same sections of matching cost, of disparity and of refinement build the same steps. -/
theorem same_steps (s : Stages w user p0 out) (s' : Stages w user' p0' out') (wf : user.wf) (wf' : user'.wf)
    (hu : user.get "pipeline" = some (.obj p0)) (hu' : user'.get "pipeline" = some (.obj p0'))
    (hsame : ∀ k, k ≠ "estimation" → p0'.get k = p0.get k) :
    s'.plan = { s.plan with estimation := s'.plan.estimation } ∧ refinementMargins s'.m.data = refinementMargins s.m.data := by
  obtain ⟨-, -, -, -, hg⟩ := pipeline_new w.steps user p0 s.pl s.m wf hu s.pipeline
  obtain ⟨-, -, -, -, hg'⟩ := pipeline_new w.steps user' p0' s'.pl s'.m wf' hu' s'.pipeline
  -- the matching cost
  have hmc : (s'.plan.cfg = s.plan.cfg ∧ s'.plan.offset = s.plan.offset ∧ s'.plan.cost = s.plan.cost) := by
    obtain ⟨mc, m1, -⟩ := s.reads.matching
    have m1' : p0'.get "matching_cost" = some (.obj mc) := by rw [hsame _ (by decide)]; exact m1
    obtain ⟨c, v, k1, -, k2, k3⟩ := hg _ _ m1
    obtain ⟨c', v', k1', -, k2', k3'⟩ := hg' _ _ m1'
    simp only [Checked, String.reduceEq, false_and, true_and, false_or, or_false] at k1 k1'
    obtain ⟨a, b, m, k1⟩ := k1
    obtain ⟨a', b', m', k1'⟩ := k1'
    rw [k1, Except.ok.injEq, Prod.mk.injEq] at k1'
    obtain ⟨rfl, -⟩ := k1'
    rw [k2, Except.ok.injEq] at k2'
    subst k2'
    obtain ⟨x, x1, x2⟩ := s.reads.built
    obtain ⟨x', x1', x2'⟩ := s'.reads.built
    rw [k3, Option.some.injEq] at x1
    rw [k3', Option.some.injEq] at x1'
    subst x1 x1'
    rw [x2, Except.ok.injEq, StepCfg.matchingCost.injEq] at x2'
    exact ⟨x2'.1.symm, x2'.2.1.symm, x2'.2.2.symm⟩
  have hinv : s'.plan.invalid = s.plan.invalid := by
    obtain ⟨d, d1, d2⟩ := s.reads.disparity
    obtain ⟨d', d1', d2'⟩ := s'.reads.disparity
    rw [hsame _ (by decide), d1, Option.some.injEq, J.obj.injEq] at d1'
    subst d1'
    exact InvalidIs.unique d2' d2
  have href : s'.plan.refinements = s.plan.refinements ∧ refinementMargins s'.m.data = refinementMargins s.m.data := by
    cases hv : p0.get "refinement" with
    | none =>
      have hv' : p0'.get "refinement" = none := by rw [hsame _ (by decide)]; exact hv
      rw [s.reads.noRefinement hv, s'.reads.noRefinement hv', no_refinement_margins wf hu s.pipeline hv,
        no_refinement_margins wf' hu' s'.pipeline hv']
      exact ⟨rfl, rfl⟩
    | some v =>
      have hv' : p0'.get "refinement" = some v := by rw [hsame _ (by decide)]; exact hv
      obtain ⟨vm, cm, st, wn, mar, c, q1, q2, q3, q4, q5, q6⟩ := checked_with wf hu s.pipeline hv
      obtain ⟨vm', cm', st', wn', mar', c', q1', q2', q3', q4', q5', q6'⟩ := checked_with wf' hu' s'.pipeline hv'
      rw [hsame _ (by decide), q1, Option.some.injEq] at q1'
      subst q1'
      rw [q2, Except.ok.injEq] at q2'
      simp only [Prod.mk.injEq] at q2'
      obtain ⟨-, rfl, rfl, -⟩ := q2'
      rw [q5, Except.ok.injEq] at q5'
      subst q5'
      refine ⟨?_, ?_⟩
      · obtain ⟨x, d, x1, x2, x3⟩ := s.reads.refinement v hv
        obtain ⟨x', d', x1', x2', x3'⟩ := s'.reads.refinement v hv'
        obtain ⟨e, y, -, k1, k2, k3⟩ := hg _ _ hv
        obtain ⟨e', y', -, k1', k2', k3'⟩ := hg' _ _ hv'
        rw [q6, Option.some.injEq, Prod.mk.injEq] at k1
        rw [q6', Option.some.injEq, Prod.mk.injEq] at k1'
        obtain ⟨-, rfl⟩ := k1
        obtain ⟨-, rfl⟩ := k1'
        rw [k2, Except.ok.injEq] at k2'
        subst k2'
        rw [k3, Option.some.injEq] at x1
        rw [k3', Option.some.injEq] at x1'
        subst x1 x1'
        have hb : buildRefinement w s'.m.data y = buildRefinement w s.m.data y := by
          unfold buildRefinement
          rw [q3, q4, q3', q4']
        rw [hb, x2, Except.ok.injEq] at x2'
        rw [x3, x3', x2']
      · rw [refinement_margins wf hu s.pipeline q6, refinement_margins wf' hu' s'.pipeline q6']
  refine ⟨?_, href.2⟩
  obtain ⟨h1, h2, h3⟩ := hmc
  have h4 := href.1
  generalize s.plan = a at *
  generalize s'.plan = b at *
  cases a
  cases b
  simp only at h1 h2 h3 h4 hinv
  subst h1 h2 h3 h4 hinv
  rfl

theorem refinedAll_estimation (e : Env K) (p : Plan K) (x : Option (Int × Int × Nat)) (left : Left K) (right : Img K) (cv : CostVolumes K)
    (l : List (StepCfg K)) (m : Spec.Maps K) : refinedAll e { p with estimation := x } left right cv l m = refinedAll e p left right cv l m := by
  have h1 : ∀ m c, refined e { p with estimation := x } left right cv m c = refined e p left right cv m c := by
    intro m c
    cases c <;> rfl
  induction l generalizing m with
  | nil => rfl
  | cons c l ih =>
    simp only [refinedAll, h1, ih]

/-- Executions which search the same intervals with the same steps on the same images write the same rasters and the same report. -/
theorem same_outputs {inp inp' : Fields} {H W : Nat} (s : Stages w user p0 out) (s' : Stages w user' p0' out') (wf : user.wf) (wf' : user'.wf)
    (hdisk : DiskContract w H W)
    (hi : user.get "input" = some (.obj inp)) (hi' : user'.get "input" = some (.obj inp')) {l r : J}
    (hl : inp.get "left" = some l ∧ inp'.get "left" = some l) (hr : inp.get "right" = some r ∧ inp'.get "right" = some r)
    (hf : user.get "ROI" = none) (hf' : user'.get "ROI" = none)
    (hu : user.get "pipeline" = some (.obj p0)) (hu' : user'.get "pipeline" = some (.obj p0'))
    (hsame : ∀ k, k ≠ "estimation" → p0'.get k = p0.get k)
    (hd : ∀ dRow dCol dRow' dCol' : Disp,
      (∀ rr rc sf, s.plan.estimation = some (rr, rc, sf) → ∃ a b, w.run.correlation s.left.img s.right.img sf = (.fin a, .fin b) ∧
        dRow = ⟨.const (pyRound (-a)), rr⟩ ∧ dCol = ⟨.const (pyRound (-b)), rc⟩) →
      (IsDisp w.files s'.inp "row_disparity" dRow' ∧ IsDisp w.files s'.inp "col_disparity" dCol') → dRow = dRow' ∧ dCol = dCol')
    (he' : p0'.get "estimation" = none) :
    ∃ files row col rest rest', out = .rasters files :: .report row col :: rest ∧ out' = .rasters files :: .report row col :: rest' := by
  obtain ⟨⟨n1, n2⟩, e1, e2, e3⟩ := same_read s s' wf wf' hi hi' hl hr hf hf'
  obtain ⟨hplan, hmar⟩ := same_steps s s' wf wf' hu hu' hsame
  obtain ⟨dRow, dCol, L, cv, o, m, -, v1, -, -, v2, v3, -, v4, v5, v6, v7, -, -, v8⟩ :=
    s.volumes hdisk (by rw [n1]; intro R h; simp at h) wf hu
  obtain ⟨dRow', dCol', L', cv', o', m', -, v1', -, -, v2', v3', -, v4', v5', v6', v7', -, v8', -⟩ :=
    s'.volumes hdisk (by rw [n2]; intro R h; simp at h) wf' hu'
  obtain ⟨rfl, rfl⟩ := hd dRow dCol dRow' dCol' v8 (v8' he')
  have hL : L' = L := by
    have himg : L'.img = L.img := by rw [v1, v1', e1]
    rw [himg, v2, Except.ok.injEq] at v2'
    rw [himg, v3, Except.ok.injEq] at v3'
    cases L
    cases L'
    simp only at himg v2' v3'
    subst himg v2' v3'
    rfl
  subst hL
  have hc : s'.plan.cfg = s.plan.cfg := by rw [hplan]
  have ho : s'.plan.cost = s.plan.cost := by rw [hplan]
  have hv : s'.plan.invalid = s.plan.invalid := by rw [hplan]
  have hr' : s'.plan.refinements = s.plan.refinements := by rw [hplan]
  rw [n2, hc, ho, e2, hmar] at v4'
  rw [n1] at v4
  rw [v4, Except.ok.injEq] at v4'
  subst v4'
  rw [hv, v5, Except.ok.injEq] at v5'
  subst v5'
  rw [hr', hplan, refinedAll_estimation, e2, v6, Except.ok.injEq] at v6'
  subst v6'
  have hm : s'.maps = s.maps := by rw [v7, v7', hv]
  have hs := s.saved
  have hs' := s'.saved
  rw [hm, e3, n2, hc, ← n1, hs, Except.ok.injEq, Prod.mk.injEq] at hs'
  refine ⟨s.files, _, _, _, finish w s'.m.data s'.cfg3, s.outIs, ?_⟩
  refine s'.outIs.trans ?_
  rw [hm, ← hs'.1]

end

/-- C102: an estimation is the same as giving its result. Two successful executions on the same full images whose pipelines are the same
but for the estimation, which only the first has: when the second is given as constant disparities the nearest integers to the opposite of
the shift measured by the correlation, half-way to the even one, and the ranges of the estimation section, the two write the same three
rasters, values, coordinates and georeferencing, and the same report, whatever the cost and whatever the refinement. -/
theorem C102_estimation_is_its_result (w : World K) (user user' p0 p0' inp inp' l r est : Fields) (out out' : List (Written K)) (H W : Nat)
    (rr rc : Int) (sf : Nat) (a b : Rat) (ir ic : Int) (wf : user.wf) (wf' : user'.wf) (hdisk : DiskContract w H W)
    (hpan : PandoraContract w) (same : EstimatedAndNot user user' p0 p0' inp inp' l r est rr rc sf) (hd : "disparity" ∈ p0.keys)
    (hcor : ∀ left right, ImagesRead w l r none left right → w.run.correlation left right sf = (.fin a, .fin b))
    (hir : IsRounding (-a) ir) (hic : IsRounding (-b) ic)
    (hrow : IsDisp w.files inp' "row_disparity" ⟨.const ir, rr⟩) (hcol : IsDisp w.files inp' "col_disparity" ⟨.const ic, rc⟩)
    (h : Main.main w user = (out, none)) (h' : Main.main w user' = (out', none)) :
    ∃ files row col rest rest', out = .rasters files :: .report row col :: rest ∧ out' = .rasters files :: .report row col :: rest' := by
  obtain ⟨hu, hu'⟩ := same.pipelines
  obtain ⟨he, he'⟩ := same.estimation
  have hd' : "disparity" ∈ p0'.keys := by
    rw [← Fields.get_isSome, same.others _ (by decide), Fields.get_isSome]; exact hd
  obtain ⟨s⟩ := main_stages w user p0 out wf hpan hu hd h
  obtain ⟨s'⟩ := main_stages w user' p0' out' wf' hpan hu' hd' h'
  obtain ⟨⟨n1, n2⟩, -⟩ := same_read s s' wf wf' same.inputs.1 same.inputs.2 same.left same.right same.full.1 same.full.2
  refine same_outputs s s' wf wf' hdisk same.inputs.1 same.inputs.2 same.left same.right same.full.1 same.full.2 hu hu' same.others ?_ he'
  intro dRow dCol dRow' dCol' hest hdisp
  obtain ⟨⟨rr1, rc1, sf1⟩, hx⟩ : ∃ x, s.plan.estimation = some x := by
    apply Option.ne_none_iff_exists'.1
    intro hx
    rw [s.reads.estimation.2 hx] at he
    simp at he
  obtain ⟨a', b', q1, rfl, rfl⟩ := hest _ _ _ hx
  obtain ⟨v, y1, y2⟩ := s.reads.estimated _ _ _ hx
  obtain ⟨-, -, -, -, hg⟩ := pipeline_new w.steps user p0 s.pl s.m wf hu s.pipeline
  obtain ⟨c, v', k1, -, k2, k3⟩ := hg _ _ he
  rw [k3, Option.some.injEq] at y1
  subst y1
  have hpw : p0.wf := Fields.wf_get user wf hu
  obtain ⟨f, f1, f2, f3⟩ := est_section (Fields.wf_get p0 hpw he) k1 k2 y2
  obtain ⟨g, g1, g2⟩ := est_sample (Fields.wf_get p0 hpw he) k1 k2 y2
  rw [J.obj.injEq] at f1 g1
  subst f1 g1
  obtain ⟨r1, r2, r3⟩ := same.asked
  obtain rfl := RangeIs.unique f2 r1
  obtain rfl := RangeIs.unique f3 r2
  obtain rfl := SampleIs.unique g2 r3
  have him := s.images wf same.inputs.1 same.left.1 same.right.1
  rw [n1] at him
  rw [hcor _ _ him] at q1
  simp only [Prod.mk.injEq, F.fin.injEq] at q1
  obtain ⟨rfl, rfl⟩ := q1
  have hge : givesEstimation p0' = false := by unfold givesEstimation; rw [he']
  have hin := s'.input
  rw [hge] at hin
  obtain ⟨c2, c3, c4, -, -⟩ := checkInputSection_ok hin
  simp only [Bool.false_eq_true, if_false] at c4
  subst c4
  have hwi := getConfigInput_wf wf'
  have hgi : (getConfigInput user').get "input" = some (.obj inp') := by rw [getConfigInput_get]; exact same.inputs.2
  obtain ⟨uf, u1, u2, u3⟩ := input_section_get hwi c3 s'.inputIs (by rw [hgi]; rfl)
  rw [hgi, Option.some.injEq, J.obj.injEq] at u1
  subst u1
  have w1 := isDisp_checked u2 (u3 "row_disparity" (by decide) (by decide)) hrow hdisp.1
  have w2 := isDisp_checked u2 (u3 "col_disparity" (by decide) (by decide)) hcol hdisp.2
  rw [← w1, ← w2, isRounding_unique (pyRound_isRounding _) hir, isRounding_unique (pyRound_isRounding _) hic]
  exact ⟨rfl, rfl⟩

/-! ## The hypotheses hold -/

/-- The full images, an estimation and an interpolation. -/
def exUserEst : Fields := dict [("input", exInput none), ("pipeline", .obj (exPipeline (some exEst) 1 1 (some exInterp)))]

/-- The same without estimation: the shift measured is -3/5 rows and 1/5 columns, the nearest integers to its opposite are 1 and 0. -/
def exUserGiven : Fields := dict [
  ("input", .obj (dict [("left", .obj (dict [("img", .str "left.tif")])),
    ("right", .obj (dict [("img", .str "right.tif"), ("nodata", .str "NaN")])),
    ("row_disparity", .obj (dict [("init", .int 1), ("range", .int 3)])),
    ("col_disparity", .obj (dict [("init", .int 0), ("range", .int 5)]))])),
  ("pipeline", .obj (exPipeline none 1 1 (some exInterp)))]

theorem exUserEst_wf : exUserEst.wf := by
  simp [exUserEst, exInput, exPipeline, exInterp, exEst, dict, Fields.append, Fields.wf, J.wf, Fields.keys]

theorem exUserGiven_wf : exUserGiven.wf := by
  simp [exUserGiven, exPipeline, exInterp, dict, Fields.append, Fields.wf, J.wf, Fields.keys]

theorem exUserEst_runs : Main.main exWorldI exUserEst = ((Main.main exWorldI exUserEst).1, none) := by
  have : (Main.main exWorldI exUserEst).2 = none := by
    obtain ⟨m, cfg, h⟩ := accepted_ok (w := exWorldI) (user := exUserEst) (by decide +kernel)
    refine C81_accepted_runs_partial exWorldI _ _ _ cfg m 5 3 0 4 0 2 1 1 exUserEst_wf exWorldI_contract rfl (by decide) rfl
      (.inl ⟨_, _, rfl, .inl rfl, .inl rfl⟩) (.inr ⟨rfl, rfl, rfl, rfl, rfl⟩) (by decide) ?_ ?_ (.inl ⟨rfl, rfl⟩) h
    · intro _
      exact ⟨fun _ _ _ => ⟨_, _, rfl⟩, .inl rfl⟩
    · intro v hv
      have : v = exInterp := (Option.some.inj hv).symm
      subst this
      exact ⟨_, rfl, .inl rfl⟩
  exact Prod.ext rfl this

theorem exUserGiven_runs : Main.main exWorldI exUserGiven = ((Main.main exWorldI exUserGiven).1, none) := by
  have : (Main.main exWorldI exUserGiven).2 = none := by
    obtain ⟨m, cfg, h⟩ := accepted_ok (w := exWorldI) (user := exUserGiven) (by decide +kernel)
    refine C81_accepted_runs_partial exWorldI _ _ _ cfg m 5 3 0 4 0 2 1 1 exUserGiven_wf exWorldI_contract rfl (by decide) rfl
      (.inl ⟨_, _, rfl, .inl rfl, .inl rfl⟩) (.inr ⟨rfl, rfl, rfl, rfl, rfl⟩) (by decide) ?_ ?_ (.inl ⟨rfl, rfl⟩) h
    · intro he
      exact absurd rfl he
    · intro v hv
      have : v = exInterp := (Option.some.inj hv).symm
      subst this
      exact ⟨_, rfl, .inl rfl⟩
  exact Prod.ext rfl this

example := C102_estimation_is_its_result exWorldI exUserEst exUserGiven _ _ _ _ _ _ _ _ _ 5 3 3 5 1 (-3 / 5) (1 / 5) 1 0 exUserEst_wf
  exUserGiven_wf exWorldI_contract.disk exWorldI_contract.pandora
  ⟨⟨rfl, rfl⟩, ⟨rfl, rfl⟩, ⟨rfl, rfl⟩, ⟨rfl, rfl⟩, ⟨rfl, rfl⟩, ⟨rfl, rfl⟩,
    ⟨.inl ⟨_, rfl, .inl rfl⟩, .inr ⟨rfl, rfl⟩, .inr ⟨rfl, rfl⟩⟩, fun k hk => by
      simp [exPipeline, dict, Fields.append, Fields.get, Ne.symm hk]⟩
  (by decide) (fun _ _ _ => rfl)
  ⟨by norm_num [abs_le], fun h => absurd h (by norm_num [abs_of_nonneg, abs_of_neg])⟩
  ⟨by norm_num [abs_le], fun _ => by decide⟩
  ⟨_, _, _, rfl, rfl, rfl, .inl rfl, .inl ⟨_, .inl rfl, rfl⟩⟩ ⟨_, _, _, rfl, rfl, rfl, .inl rfl, .inl ⟨_, .inl rfl, rfl⟩⟩
  exUserEst_runs exUserGiven_runs

end Verif.Props
