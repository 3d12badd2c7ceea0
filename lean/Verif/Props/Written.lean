import Verif.Props.MainStages

/-!
# C77: what an execution writes
-/

namespace Verif.Props

open Verif Verif.Config Verif.Machine Verif.ImgTools Verif.MatchingCost Verif.Disparity Verif.Estimation Verif.Run Verif.Main Verif.Spec
  Verif.Save Verif.Statistics

set_option linter.unusedSectionVars false

variable {K : Type} [Field K] [LinearOrder K] [IsStrictOrderedRing K] [FloorRing K]

/-- Only the disparity step makes maps. -/
theorem exec_no_maps (e : Run.Env K) (roi : Option Roi) (cb : Cb) (hcb : cb ≠ .dispMapsRun) (cfg : Pipeline (StepCfg K)) (s : String)
    (d : Run.Attrs K) (hd : d.maps = none) : (runExec e roi cb cfg s d).1.maps = none := by
  cases cb <;> simp only [runExec, ne_eq, not_true_eq_false, reduceCtorEq, not_false_eq_true] at hcb ⊢
  all_goals first | exact hd | skip
  all_goals (repeat' split)
  all_goals first | exact hd | simp_all

theorem callbacks_no_maps (e : Run.Env K) (roi : Option Roi) (cfg : Pipeline (StepCfg K)) : ∀ (l : List (Cb × String)) (d : Run.Attrs K),
    (∀ x ∈ l, x.1 ≠ .dispMapsRun) → d.maps = none → (runCallbacks (runExec e roi) cfg l d).1.maps = none
  | [], _, _, hd => hd
  | (cb, s) :: l, d, h, hd => by
    unfold runCallbacks
    have h1 := exec_no_maps e roi cb (h (cb, s) List.mem_cons_self) cfg s d hd
    rcases hx : runExec e roi cb cfg s d with ⟨d', _ | x⟩
    · rw [hx] at h1
      exact callbacks_no_maps e roi cfg l d' (fun x hx => h x (List.mem_cons_of_mem _ hx)) h1
    · rw [hx] at h1
      exact h1

/-- The summary is asked by a section which is not empty. -/
theorem expert_get (user cfg : Fields) (env : Config.Env) {M : Type} (st : Steps J M) (m0 m : Mach (Machine.Attrs J M)) (hw : user.wf)
    (h : Config.checkConf env st user m0 = (m, .ok cfg)) :
    cfg.get "expert_mode" = if user.get "expert_mode" = some (.obj .nil) then none else user.get "expert_mode" := by
  obtain ⟨pl, input, roi, pl', expert, h1, h2, h3, h4, h5, h6, rfl⟩ := checkConf_sections env st user cfg m0 m h
  obtain ⟨rfl, -⟩ := roi_unchanged env.boolIsInt user roi hw h3
  have hi : input.get "expert_mode" = none := (Fields.get_eq_none _ _).2 fun hk => by
    have := input_keys env _ input _ h2 _ hk; simp at this
  have hr : (getRoiConfig user).get "expert_mode" = none := by
    unfold getRoiConfig
    split <;> simp [Fields.get]
  rw [Fields.get_append, hi, Fields.get_append, hr]
  simp only [Option.none_or, Fields.get, String.reduceEq, if_false]
  unfold checkExpert at h6
  split at h6
  · rename_i hn
    simp only [Except.ok.injEq] at h6
    subst h6
    simp [hn, Fields.get]
  · rename_i hn
    simp only [Except.ok.injEq] at h6
    subst h6
    simp [hn, Fields.get]
  · rename_i e hne hn
    split at h6
    · simp at h6
    · split_ifs at h6
      simp only [Except.ok.injEq] at h6
      subst h6
      have : ¬ (user.get "expert_mode" = some (.obj .nil)) := by
        rw [hn, Option.some.injEq, J.obj.injEq]
        intro he
        exact hne he
      rw [if_neg this, hn]
      simp [Fields.get]
  · simp at h6

/-- C77: for every successful execution: the three rasters and the report are written exactly when the pipeline has a disparity step, the
configuration always, the summary of the profiling exactly when there is an expert mode section which is not empty; nothing else, each
one once, in this order. -/
theorem C77_what_is_written (w : World K) (user p0 : Fields) (out : List (Written K)) (hw : user.wf) (hpan : PandoraContract w)
    (hu : user.get "pipeline" = some (.obj p0)) (h : Main.main w user = (out, none)) :
    out.map kindOf = (if "disparity" ∈ p0.keys then [Kind.rasters, Kind.report] else []) ++ [Kind.config] ++
      (if user.get "expert_mode" = none ∨ user.get "expert_mode" = some (.obj .nil) then [] else [Kind.summary]) := by
  -- the end
  have tail : ∀ (m : Mach (Machine.Attrs J Margins)) (cfg c1 c3 : Fields) (inp' : Fields) ,
      Config.checkConf w.env w.steps user (fresh .init) = (m, .ok cfg) → (∀ k, k ≠ "ROI" → c1.get k = cfg.get k) →
      Completes (c1.set "input" (.obj inp')) c3 → (finish w m.data c3).map kindOf = [Kind.config] ++
        (if user.get "expert_mode" = none ∨ user.get "expert_mode" = some (.obj .nil) then [] else [Kind.summary]) := by
    intro m cfg c1 c3 inp' h1 h2 h3
    have he := expert_get user cfg w.env w.steps _ m hw h1
    rw [← h2 "expert_mode" (by decide)] at he
    have h4 := h3.others "expert_mode" (by decide) (by decide)
    rw [Fields.get_set, if_neg (by decide), he] at h4
    unfold finish
    rw [h4]
    split_ifs with q1 q2 q2
    · rfl
    · exact absurd (Or.inr q1) q2
    · have q3 : user.get "expert_mode" = none := q2.resolve_right q1
      rw [q3]; rfl
    · push Not at q2
      obtain ⟨v, hv⟩ := Option.ne_none_iff_exists'.1 q2.1
      rw [hv]; rfl
  by_cases hd : "disparity" ∈ p0.keys
  · obtain ⟨s⟩ := main_stages w user p0 out hw hpan hu hd h
    have := tail s.m s.cfg s.cfg1 s.cfg3 s.inp' s.checkedAll s.cfg1Is (completed_ok w _ _ _ _ _ s.completedIs).1
    rw [if_pos hd, s.outIs, List.map_cons, List.map_cons, this]
    rfl
  · obtain ⟨m, cfg, d, l, h1, h2, h3, h4⟩ := main_ok w user out h
    obtain ⟨p0', cin, pl', c1, c2, c3, -, c5, c6, c7, c8⟩ := checkConf_gets w.env w.steps user cfg _ m hw h1
    rw [hu, Option.some.injEq, J.obj.injEq] at c1
    subst c1
    obtain ⟨inp, col, row, cfg1, readRoi, roi, pl, inp', left, right, steps, maps, cfg3, l1, l2, l3, l4, l5, l6, l7, l8, l9, l10, rfl⟩ :=
      launch_ok w m cfg d h2
    obtain ⟨r1, r2, r3, r4⟩ := roiStep_ok w m.data cfg cfg1 col row readRoi roi l4
    rw [r2 "pipeline" (by decide), c8, Option.some.injEq, J.obj.injEq] at l5
    subst l5
    obtain ⟨hwf, hk, -, hm, -⟩ := pipeline_new w.steps user p0 pl' m hw hu c3
    have hn : p0.keys.Nodup := Fields.wf_keys p0 (Fields.wf_get user hw hu)
    have hnames : steps.map Prod.fst = p0.keys := by
      have hF := buildAll_ok w m.data _ _ l8
      have e1 : ∀ (a : Pipeline J) (b : Pipeline (StepCfg K)), List.Forall₂ (fun x y => x.1 = y.1 ∧ build w m.data x.1 x.2 = .ok y.2) a b →
          b.map Prod.fst = a.map Prod.fst := by
        intro a b hab
        induction hab with
        | nil => rfl
        | cons h _ ih => rw [List.map_cons, List.map_cons, ih, h.1]
      rw [e1 _ _ hF, toPipeline_eq pl' (by rw [hk]; exact hn) _ hk, List.map_map]
      exact List.map_id _
    have hmaps : maps = none := by
      have hr : (Run.run w.run roi left right.img steps
          (fresh { (Run.Attrs.init : Run.Attrs K) with margins := refinementMargins m.data })).2 = .ok maps := by
        have e1 : m.state = (fresh (Run.Attrs.init : Run.Attrs K)).state := by rw [hm]; rfl
        have e2 : m.transitions = (fresh (Run.Attrs.init : Run.Attrs K)).transitions := by rw [hm]; rfl
        rw [e1, e2] at l9
        exact l9
      unfold Run.run at hr
      split at hr
      · rename_i m' hrun
        simp only [Except.ok.injEq] at hr
        obtain ⟨-, q, -⟩ := run_from_begin (runExec w.run roi) (prepare left right.img) steps
          { (Run.Attrs.init : Run.Attrs K) with margins := refinementMargins m.data }
        rw [hrun] at q
        have q := q rfl
        simp only at q
        rw [q] at hr
        rw [← hr]
        refine callbacks_no_maps w.run roi steps _ _ ?_ rfl
        rw [hnames]
        intro x hx
        unfold runPlan at hx
        obtain ⟨s, hs, hx⟩ := List.mem_flatMap.1 hx
        obtain ⟨cb, hcb, rfl⟩ := List.mem_map.1 hx
        obtain ⟨e, hc⟩ := wellFormed_cases hwf hn
        have hs' : s = "estimation" ∨ s = "matching_cost" := by
          rcases hc with h1 | h1 | h1 | h1 <;> rw [h1] at hs hd <;> cases e <;> simp at hs hd <;> tauto
        have s1 : stepOf "estimation" = "estimation" := by decide
        have s2 : stepOf "matching_cost" = "matching_cost" := by decide
        rcases hs' with rfl | rfl
        · rw [s1] at hcb; simp [runCallbacksOf] at hcb; subst hcb; simp
        · rw [s2] at hcb; simp [runCallbacksOf] at hcb; rcases hcb with rfl | rfl <;> simp
      · simp at hr
    subst hmaps
    simp only [saveMaps, Except.ok.injEq] at h3
    subst h3
    rw [h4, if_neg hd, List.nil_append, List.nil_append]
    exact tail m cfg cfg1 cfg3 inp' h1 r2 (completed_ok w _ _ _ _ _ l10).1

end Verif.Props
