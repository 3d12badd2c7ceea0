import Verif.Props.CheckAgain
import Verif.Props.AcceptedExample
import Verif.Props.MainStages
import Verif.Props.Estimation

/-!
# Property C95: the saved configuration can be executed again exactly when there is neither a ROI nor an estimation
-/

namespace Verif.Props

open Verif Verif.Config Verif.Machine Verif.ImgTools Verif.MatchingCost Verif.Disparity Verif.Estimation Verif.Run Verif.Main Verif.Spec
  Verif.Save Verif.Statistics

set_option linter.unusedSectionVars false

variable {K : Type} [Field K] [LinearOrder K] [IsStrictOrderedRing K] [FloorRing K]

/-- The configuration which is saved is the completed one with the margins. -/
theorem config_saved {w : World K} {d : Done K} {l : List (Written K)} {a : Machine.Attrs J Disparity.Margins} {saved : Fields}
    (hl : saveMaps w d = .ok l) (h : .config saved ∈ l ++ finish w a d.cfg) :
    saved = d.cfg.set "margins" (w.marginsDict a.cumulative a.nonCumulative) := by
  rcases List.mem_append.1 h with h | h
  · unfold saveMaps at hl
    split at hl
    · simp only [Except.ok.injEq] at hl
      subst hl
      simp at h
    · obtain ⟨_, -, hl⟩ := bind_eq_ok hl
      obtain ⟨_, -, hl⟩ := bind_eq_ok hl
      simp only [pure, Except.pure, Except.ok.injEq] at hl
      subst hl
      simp at h
  · unfold finish at h
    rcases List.mem_cons.1 h with h | h
    · exact Written.config.inj h
    · split at h <;> simp at h

/-- A launch with neither ROI nor estimation leaves the configuration unchanged. -/
theorem launch_same {w : World K} {m : Mach (Machine.Attrs J Disparity.Margins)} {cfg pl : Fields} {d : Done K} (hw : cfg.wf)
    (h : launch w m cfg = .ok d) (hr : cfg.get "ROI" = none) (hp : cfg.get "pipeline" = some (.obj pl)) (he : pl.get "estimation" = none) :
    d.cfg = cfg := by
  obtain ⟨inp, col, row, cfg1, readRoi, roi, pl1, inp', left, right, steps, maps, cfg3, l1, -, -, l4, l5, l6, -, l8, -, l10, rfl⟩ :=
    launch_ok w m cfg d h
  obtain ⟨-, -, hroi, -⟩ := roiStep_ok w m.data cfg cfg1 col row readRoi roi l4
  obtain ⟨-, rfl⟩ := hroi hr
  rw [hp, Option.some.injEq, J.obj.injEq] at l5
  subst l5
  have hi := (created_input l6).2.1 (by rw [he]; rfl)
  subst hi
  rw [Fields.set_get_self _ _ _ (Fields.wf_keys _ hw) l1] at l10
  refine (completed_ok w steps _ _ _ _ l10).2 fun a b s hl => ?_
  have hmem : ∀ (l : Pipeline J) (s : Pipeline (StepCfg K)), List.Forall₂ (fun x y => x.1 = y.1 ∧ build w m.data x.1 x.2 = .ok y.2) l s →
      ∀ y ∈ s, y.1 ∈ l.map (·.1) := by
    intro l s hf
    induction hf with
    | nil => simp
    | cons h1 _ ih =>
      intro y hy
      rcases List.mem_cons.1 hy with rfl | hy
      · simp [h1.1]
      · exact List.mem_cons_of_mem _ (ih y hy)
  have hls : ∃ y ∈ steps, y.1 = "estimation" := by
    unfold lookup at hl
    cases hf : steps.find? (fun p => decide (p.1 = "estimation")) with
    | none => rw [hf] at hl; simp at hl
    | some y => exact ⟨y, List.mem_of_find?_eq_some hf, by simpa using List.find?_some hf⟩
  obtain ⟨y, hy, hy1⟩ := hls
  have := hmem _ _ (buildAll_ok w m.data _ _ l8) y hy
  rw [hy1, toPipeline_keys] at this
  exact (Fields.get_eq_none _ _).1 he this

/-- The step built under the name `estimation` is an estimation. -/
theorem built_estimation {w : World K} {a : Machine.Attrs J Disparity.Margins} {l : Pipeline J} {s : Pipeline (StepCfg K)}
    (hf : List.Forall₂ (fun x y => x.1 = y.1 ∧ build w a x.1 x.2 = .ok y.2) l s) (hm : "estimation" ∈ l.map (·.1)) :
    ∃ x y z, lookup s "estimation" = .ok (.estimation x y z) := by
  induction hf with
  | nil => simp at hm
  | @cons p q l s h1 _ ih =>
    by_cases e : p.1 = "estimation"
    · have hb := h1.2
      have e' : q.1 = "estimation" := by rw [← h1.1, e]
      rw [e] at hb
      unfold build at hb
      rw [if_pos (by decide)] at hb
      unfold buildEstimation at hb
      obtain ⟨_, -, hb⟩ := bind_eq_ok hb
      obtain ⟨_, -, hb⟩ := bind_eq_ok hb
      obtain ⟨_, -, hb⟩ := bind_eq_ok hb
      obtain ⟨rr, -, hb⟩ := bind_eq_ok hb
      obtain ⟨_, -, hb⟩ := bind_eq_ok hb
      obtain ⟨rc, -, hb⟩ := bind_eq_ok hb
      obtain ⟨_, -, hb⟩ := bind_eq_ok hb
      obtain ⟨sf, -, hb⟩ := bind_eq_ok hb
      simp only [pure, Except.pure, Except.ok.injEq] at hb
      refine ⟨rr, rc, sf, ?_⟩
      unfold lookup
      rw [List.find?_cons_of_pos (by simp [e']), hb]
    · have hm' : "estimation" ∈ l.map (·.1) := by
        simp only [List.map_cons, List.mem_cons] at hm
        exact hm.resolve_left fun h => e h.symm
      obtain ⟨x, y, z, h⟩ := ih hm'
      refine ⟨x, y, z, ?_⟩
      rw [← h]
      unfold lookup
      rw [List.find?_cons_of_neg (by simp [← h1.1, e])]

/-- The completed configuration of an estimation has its shifts. -/
theorem completed_shifts {w : World K} {steps : Pipeline (StepCfg K)} {l r : Img K} {cfg cfg3 : Fields} {x y : Int} {z : Nat}
    (h : completed w steps l r cfg = .ok cfg3) (hl : lookup steps "estimation" = .ok (.estimation x y z)) :
    ∃ pl e, cfg3.get "pipeline" = some (.obj pl) ∧ pl.get "estimation" = some (.obj e) ∧ (e.get "estimated_shifts").isSome = true := by
  unfold completed at h
  rw [hl] at h
  simp only at h
  obtain ⟨o, h1, h⟩ := bind_eq_ok h
  simp only [pure, Except.pure, Except.ok.injEq] at h
  subst h
  unfold estimationRun at h1
  obtain ⟨e, -, h1⟩ := bind_eq_ok h1
  obtain ⟨_, -, h1⟩ := bind_eq_ok h1
  obtain ⟨_, -, h1⟩ := bind_eq_ok h1
  obtain ⟨c, hc, h1⟩ := bind_eq_ok h1
  simp only [pure, Except.pure, Except.ok.injEq] at h1
  subst h1
  simp only
  unfold updateCfg at hc
  obtain ⟨c1, q1, hc⟩ := bind_eq_ok hc
  split at hc
  · rename_i pl _
    obtain ⟨p1, q2, hc⟩ := bind_eq_ok hc
    simp only [pure, Except.pure, Except.ok.injEq] at hc
    obtain ⟨x, hx, rfl⟩ := modifyIn_ok q2
    subst hc
    refine ⟨_, _, by rw [Fields.get_set, if_pos rfl], by rw [Fields.get_set, if_pos rfl], ?_⟩
    rw [Fields.get_set, if_neg (by decide), Fields.get_set, if_neg (by decide), Fields.get_set, if_pos rfl]
    rfl
  · simp at hc
  · simp at hc

/-- C95, without ROI and estimation: an execution on the saved configuration writes the same files. -/
theorem C95_saved_again {w : World K} (hp : PandoraKeeps w.pandora) {user p0 saved : Fields} {out : List (Written K)} (hw : user.wf)
    (hu : user.get "pipeline" = some (.obj p0)) (h : Main.main w user = (out, none)) (hs : .config saved ∈ out) (hsw : saved.wf)
    (hr : user.get "ROI" = none) (he : p0.get "estimation" = none) : Main.main w saved = (out, none) := by
  obtain ⟨m, cfg, d, l, h1, h2, h3, rfl⟩ := main_ok w user out h
  have hsv := config_saved h3 hs
  have hcw := checked_wf hp hw h1
  obtain ⟨p1, input, pl', g1, -, g3, -, -, -, g7, g8⟩ := checkConf_gets w.env w.steps user cfg _ m hw h1
  rw [hu, Option.some.injEq, J.obj.injEq] at g1
  subst g1
  have hk := (pipeline_new w.steps user p0 pl' m hw hu g3).2.1
  have hd := launch_same hcw h2 (by rw [g7, hr]) g8 (by
    rw [Fields.get_eq_none, hk]; exact (Fields.get_eq_none _ _).1 he)
  have hc := checked_like hp hw h1 hsw fun k hk => by
    rw [hsv, hd, Fields.get_set, if_neg (by rintro rfl; revert hk; decide)]
  rw [← h]
  unfold Main.main
  rw [hc, h1]

/-- With a ROI or an estimation the checks refuse the saved configuration. -/
theorem saved_unaccepted {w : World K} {user p0 saved : Fields} {out : List (Written K)} (hw : user.wf)
    (hu : user.get "pipeline" = some (.obj p0)) (h : Main.main w user = (out, none)) (hs : .config saved ∈ out) (hsw : saved.wf)
    (hre : user.get "ROI" ≠ none ∨ p0.get "estimation" ≠ none) :
    ∀ m2 cfg2, Config.checkConf w.env w.steps saved (fresh .init) ≠ (m2, .ok cfg2) := by
  obtain ⟨m, cfg, d, l, h1, h2, h3, rfl⟩ := main_ok w user out h
  have hsv := config_saved h3 hs
  obtain ⟨p1, input, pl', g1, -, g3, -, -, -, g7, g8⟩ := checkConf_gets w.env w.steps user cfg _ m hw h1
  rw [hu, Option.some.injEq, J.obj.injEq] at g1
  subst g1
  obtain ⟨-, hk, -, -, hsec⟩ := pipeline_new w.steps user p0 pl' m hw hu g3
  obtain ⟨inp, col, row, cfg1, readRoi, roi, pl1, inp', left, right, steps, maps, cfg3, l1, -, -, l4, l5, l6, -, l8, -, l10, rfl⟩ :=
    launch_ok w m cfg d h2
  have hcm := (completed_ok w steps _ _ _ _ l10).1
  simp only at hsv
  obtain ⟨-, hoth, -, -⟩ := roiStep_ok w m.data cfg cfg1 col row readRoi roi l4
  rw [hoth "pipeline" (by decide), g8, Option.some.injEq, J.obj.injEq] at l5
  subst l5
  -- the check of the saved configuration
  intro m2 cfg2 hc
  obtain ⟨pl2, input2, roi2, pl2', expert2, k1, -, k3, k4, -, -, -⟩ := checkConf_sections w.env w.steps saved cfg2 _ m2 hc
  rcases hre with hre | hre
  · obtain ⟨v, hv⟩ := Option.ne_none_iff_exists'.1 hre
    unfold roiStep at l4
    rw [g7, hv] at l4
    simp only at l4
    obtain ⟨R0, -, l4⟩ := bind_eq_ok l4
    obtain ⟨_, -, l4⟩ := bind_eq_ok l4
    obtain ⟨_, -, l4⟩ := bind_eq_ok l4
    obtain ⟨o, -, l4⟩ := bind_eq_ok l4
    obtain ⟨f, -, l4⟩ := bind_eq_ok l4
    simp only [pure, Except.pure, Except.ok.injEq, Prod.mk.injEq] at l4
    obtain ⟨rfl, -, -⟩ := l4
    have hg : saved.get "ROI" = some (.obj (f.set "margins" (marginsJ o.2.margins))) := by
      rw [hsv, Fields.get_set, if_neg (by decide), hcm.others "ROI" (by decide) (by decide), Fields.get_set, if_neg (by decide),
        Fields.get_set, if_pos rfl]
    refine C60_roi_margins w.env.boolIsInt f (marginsJ o.2.margins) (Fields.wf_get saved hsw hg) roi2 ?_
    unfold getRoiConfig at k3
    rw [hg] at k3
    exact k3
  · obtain ⟨v, hv⟩ := Option.ne_none_iff_exists'.1 hre
    have hmem : "estimation" ∈ pl'.keys := by rw [hk]; exact Fields.mem_of_get hv
    obtain ⟨x, y, z, hl⟩ := built_estimation (buildAll_ok w m.data _ _ l8) (by rw [toPipeline_keys]; exact hmem)
    obtain ⟨pl3, e, q1, q2, q3⟩ := completed_shifts l10 hl
    have hg : saved.get "pipeline" = some (.obj pl3) := by rw [hsv, Fields.get_set, if_neg (by decide), q1]
    obtain ⟨-, -, -, -, hsec2⟩ := pipeline_new w.steps saved pl3 pl2' m2 hsw hg k4
    obtain ⟨c, -, hck, -⟩ := hsec2 _ _ q2
    refine estimationCheck_extra w.env.boolIsInt e.convAll ?_ c (checked_estimation.1 hck)
    rw [Fields.get_convAll, Option.isSome_map]
    exact q3

/-- C95, with a ROI or an estimation: the saved configuration is refused, nothing is written. -/
theorem C95_saved_refused {w : World K} {user p0 saved : Fields} {out : List (Written K)} (hw : user.wf)
    (hu : user.get "pipeline" = some (.obj p0)) (h : Main.main w user = (out, none)) (hs : .config saved ∈ out) (hsw : saved.wf)
    (hre : user.get "ROI" ≠ none ∨ p0.get "estimation" ≠ none) : ∃ e, Main.main w saved = ([], some e) := by
  cases hc : Config.checkConf w.env w.steps saved (fresh .init) with
  | mk m2 r =>
    cases r with
    | error e => exact ⟨e, by unfold Main.main; rw [hc]⟩
    | ok cfg2 => exact absurd hc (saved_unaccepted hw hu h hs hsw hre m2 cfg2)

/-- C95: the saved configuration can be executed again exactly when the configuration of the user has neither a ROI nor an estimation. -/
theorem C95_saved_again_iff {w : World K} (hp : PandoraKeeps w.pandora) {user p0 saved : Fields} {out : List (Written K)} (hw : user.wf)
    (hu : user.get "pipeline" = some (.obj p0)) (h : Main.main w user = (out, none)) (hs : .config saved ∈ out) (hsw : saved.wf) :
    (∃ out', Main.main w saved = (out', none)) ↔ user.get "ROI" = none ∧ p0.get "estimation" = none := by
  constructor
  · rintro ⟨out', ho⟩
    by_contra hc
    rw [not_and_or] at hc
    obtain ⟨e, he⟩ := C95_saved_refused hw hu h hs hsw hc
    rw [he] at ho
    simp at ho
  · rintro ⟨h1, h2⟩
    exact ⟨out, C95_saved_again hp hw hu h hs hsw h1 h2⟩

/-! ## Examples -/

/-- A dictionary with one value more. -/
theorem wf_set {f : Fields} {k : String} {v : J} (hf : f.wf) (hv : v.wf) : (f.set k v).wf :=
  Fields.wf_of _ (Fields.keys_set_nodup _ _ _ (Fields.wf_keys _ hf)) fun k' v' h => by
    rw [Fields.get_set] at h
    split_ifs at h
    · exact Option.some.inj h ▸ hv
    · exact Fields.wf_get f hf h

theorem modifyIn_wf {f g : Fields} {k : String} {h : Fields → Fields} (e : modifyIn f k h = .ok g) (hf : f.wf)
    (hh : ∀ x, x.wf → (h x).wf) : g.wf := by
  obtain ⟨x, hx, rfl⟩ := modifyIn_ok e
  exact wf_set hf (hh x (Fields.wf_get f hf hx))

/-- When the margins and the extra values of the estimation are dictionaries, the saved configuration is one. -/
theorem saved_wf {w : World K} (hp : PandoraKeeps w.pandora) (hm : ∀ a b, (w.marginsDict a b).wf)
    (hx : ∀ l r s, (w.extra l r s).1.wf ∧ (w.extra l r s).2.wf) {user saved : Fields} {out : List (Written K)} (hw : user.wf)
    (h : Main.main w user = (out, none)) (hs : .config saved ∈ out) : saved.wf := by
  obtain ⟨m, cfg, d, l, h1, h2, h3, rfl⟩ := main_ok w user out h
  have hcw := checked_wf hp hw h1
  rw [config_saved h3 hs]
  obtain ⟨inp, col, row, cfg1, readRoi, roi, pl1, inp', left, right, steps, maps, cfg3, l1, -, -, l4, l5, l6, -, l8, -, l10, rfl⟩ :=
    launch_ok w m cfg d h2
  refine wf_set ?_ (hm _ _)
  simp only
  have hc1 : cfg1.wf := by
    unfold roiStep at l4
    cases hr : cfg.get "ROI" with
    | none =>
      rw [hr] at l4
      simp only [Except.ok.injEq, Prod.mk.injEq] at l4
      exact l4.1 ▸ hcw
    | some v =>
      rw [hr] at l4
      simp only at l4
      obtain ⟨_, -, l4⟩ := bind_eq_ok l4
      obtain ⟨_, -, l4⟩ := bind_eq_ok l4
      obtain ⟨_, -, l4⟩ := bind_eq_ok l4
      obtain ⟨_, -, l4⟩ := bind_eq_ok l4
      obtain ⟨f, hf, l4⟩ := bind_eq_ok l4
      simp only [pure, Except.pure, Except.ok.injEq, Prod.mk.injEq] at l4
      rw [← l4.1]
      rw [asObj_iff] at hf
      subst hf
      exact wf_set hcw (wf_set (f := f) (Fields.wf_get cfg hcw hr) (by simp [marginsJ, J.wf]))
  have hi : inp'.wf := by
    have hiw : inp.wf := Fields.wf_get cfg hcw l1
    have hpw : Datasets.placeholder.wf := by simp [Datasets.placeholder, J.wf, Fields.wf, Fields.keys]
    have tail : ∀ {i : Fields}, (do
        let l ← item i "left"
        let li ← w.files.read l readRoi
        let c ← item i "col_disparity"
        let r ← item i "row_disparity"
        let left ← Datasets.addDisparityGrid w.files li c r false
        let rg ← item i "right"
        let ri ← w.files.read rg readRoi
        let right ← Datasets.addDisparityGrid w.files ri c r true
        return (i, left, right)) = Except.ok (inp', left, right) → i = inp' := by
      intro i h
      obtain ⟨_, -, h⟩ := bind_eq_ok h
      obtain ⟨_, -, h⟩ := bind_eq_ok h
      obtain ⟨_, -, h⟩ := bind_eq_ok h
      obtain ⟨_, -, h⟩ := bind_eq_ok h
      obtain ⟨_, -, h⟩ := bind_eq_ok h
      obtain ⟨_, -, h⟩ := bind_eq_ok h
      obtain ⟨_, -, h⟩ := bind_eq_ok h
      obtain ⟨_, -, h⟩ := bind_eq_ok h
      simp only [pure, Except.pure, Except.ok.injEq, Prod.mk.injEq] at h
      exact h.1
    unfold Datasets.createDatasets at l6
    cases hest : (pl1.get "estimation").isSome with
    | false =>
      simp only [hest, Bool.false_eq_true, if_false] at l6
      obtain ⟨_, -, l6⟩ := bind_eq_ok l6
      obtain ⟨i, hi, l6⟩ := bind_eq_ok l6
      simp only [pure, Except.pure, Except.ok.injEq] at hi
      subst hi
      exact tail l6 ▸ hiw
    | true =>
      simp only [hest, if_true] at l6
      obtain ⟨i, hi, l6⟩ := bind_eq_ok l6
      simp only [pure, Except.pure, Except.ok.injEq] at hi
      subst hi
      exact tail l6 ▸ wf_set (wf_set hiw hpw) hpw
  have hc2 : (cfg1.set "input" (.obj inp')).wf := wf_set hc1 hi
  unfold completed at l10
  split at l10
  · obtain ⟨o, q1, l10⟩ := bind_eq_ok l10
    simp only [pure, Except.pure, Except.ok.injEq] at l10
    subst l10
    unfold estimationRun at q1
    obtain ⟨e, -, q1⟩ := bind_eq_ok q1
    obtain ⟨_, -, q1⟩ := bind_eq_ok q1
    obtain ⟨_, -, q1⟩ := bind_eq_ok q1
    obtain ⟨c, hc, q1⟩ := bind_eq_ok q1
    simp only [pure, Except.pure, Except.ok.injEq] at q1
    subst q1
    simp only
    unfold updateCfg at hc
    obtain ⟨c1, q1, hc⟩ := bind_eq_ok hc
    have hdw : ∀ a b, (dispDict a b).wf := fun a b => by simp [dispDict, J.wf, Fields.wf, Fields.keys]
    have hc3 := modifyIn_wf q1 hc2 fun x hx => wf_set (wf_set hx (hdw _ _)) (hdw _ _)
    split at hc
    · rename_i pl hpl
      obtain ⟨p1, q2, hc⟩ := bind_eq_ok hc
      simp only [pure, Except.pure, Except.ok.injEq] at hc
      subst hc
      refine wf_set hc3 (show (J.obj _).wf from modifyIn_wf q2 (Fields.wf_get _ hc3 hpl) fun x hx' => ?_)
      exact wf_set (wf_set (wf_set hx' trivial) (hx _ _ _).1) (hx _ _ _).2
    · simp at hc
    · simp at hc
  · exact Except.ok.inj l10 ▸ hc2

/-- A successful execution saves a configuration. -/
theorem saves_config {w : World K} {user : Fields} {out : List (Written K)} (h : Main.main w user = (out, none)) :
    ∃ saved, .config saved ∈ out := by
  obtain ⟨m, cfg, d, l, -, -, -, rfl⟩ := main_ok w user out h
  exact ⟨_, List.mem_append_right _ (by unfold finish; exact List.mem_cons_self)⟩

/-- An optical flow on the whole images: its saved configuration can be executed again. -/
example : ∃ out saved, Main.main (exWorldOf 1) (exUserWhole 2 1 (some exFlow) (some (.int 0))) = (out, none) ∧ .config saved ∈ out ∧
    saved ≠ exUserWhole 2 1 (some exFlow) (some (.int 0)) ∧ Main.main (exWorldOf 1) saved = (out, none) := by
  have hw : (exUserWhole 2 1 (some exFlow) (some (.int 0))).wf := by
    simp [exUserWhole, exInput, exPipeline, exFlow, dict, Fields.append, Fields.wf, J.wf, Fields.keys]
  obtain ⟨out, e, h⟩ : ∃ out e, Main.main (exWorldOf 1) (exUserWhole 2 1 (some exFlow) (some (.int 0))) = (out, e) := ⟨_, _, rfl⟩
  have he := exFlow_runs
  rw [h] at he
  simp only at he
  subst he
  obtain ⟨saved, hs⟩ := saves_config h
  have hk := (exWorldOf_contract 1 5 (by decide)).keeps
  refine ⟨out, saved, h, hs, ?_, C95_saved_again hk hw rfl h hs (saved_wf hk (fun _ _ => trivial) (fun _ _ _ => ⟨trivial, trivial⟩) hw h hs) rfl rfl⟩
  obtain ⟨m, cfg, d, l, -, -, h3, rfl⟩ := main_ok _ _ _ h
  intro hc
  have := congrArg (fun f : Fields => f.get "margins") ((config_saved h3 hs).symm.trans hc)
  rw [Fields.get_set, if_pos rfl] at this
  exact absurd this (show some J.null ≠ none by simp)

/-- A ROI with a dichotomy: the saved configuration is refused. -/
example : ∃ out saved e, Main.main exWorldI (exUserWith none 1 1 (some exDicho) (some (.str "grid.tif"))) = (out, none) ∧ .config saved ∈ out ∧
    Main.main exWorldI saved = ([], some e) := by
  have hw : (exUserWith none 1 1 (some exDicho) (some (.str "grid.tif"))).wf := by
    simp [exUserWith, exInput, exPipeline, exDicho, dict, Fields.append, Fields.wf, J.wf, Fields.keys]
  obtain ⟨out, e, h⟩ : ∃ out e, Main.main exWorldI (exUserWith none 1 1 (some exDicho) (some (.str "grid.tif"))) = (out, e) := ⟨_, _, rfl⟩
  have he := exRoi_runs
  rw [h] at he
  simp only at he
  subst he
  obtain ⟨saved, hs⟩ := saves_config h
  obtain ⟨e, hr⟩ := C95_saved_refused hw rfl h hs
    (saved_wf exWorldI_contract.keeps (fun _ _ => trivial) (fun _ _ _ => ⟨trivial, trivial⟩) hw h hs) (.inl (by decide))
  exact ⟨out, saved, e, h, hs, hr⟩

end Verif.Props
