import Verif.Props.ConfigAgain
import Verif.Props.Machine
import Verif.Props.Datasets

/-!
# The check of a whole configuration
-/

namespace Verif.Props

open Verif Verif.Config Verif.Machine Verif.Spec

set_option linter.unusedSectionVars false

section
variable {M : Type}

/-- Whether the user gives an estimation step. -/
def givesEstimation (pl : Fields) : Bool :=
  match pl.get "estimation" with
  | none => false
  | some v => decide (v ≠ .null)

theorem checkPipelineJ_form (st : Steps J M) (user c : Fields) (m0 m : Mach (Attrs J M)) (h : checkPipelineJ st user m0 = (m, .ok c)) :
    ∃ u pl pl', updateConf .nil user = .ok u ∧ u.get "pipeline" = some (.obj pl) ∧
      Machine.checkConf (checkExec st) (toPipeline pl) m0 = (m, none) ∧ updateConf pl (ofPipeline m.data.pipelineCfg) = .ok pl' ∧
      c = .cons "pipeline" (.obj pl') .nil := by
  unfold checkPipelineJ at h
  split at h
  · simp at h
  · rename_i u hu
    split at h
    · simp at h
    · rename_i pl hpl
      split at h
      · simp at h
      · rename_i m' hm
        split at h
        · simp at h
        · rename_i pl' hpl'
          simp only [Prod.mk.injEq, Except.ok.injEq] at h
          obtain ⟨rfl, rfl⟩ := h
          exact ⟨u, pl, pl', hu, hpl, hm, hpl', rfl⟩
    · simp at h

/-- The checked configuration is made of the checked sections. -/
theorem checkConf_sections (env : Config.Env) (st : Steps J M) (user cfg : Fields) (m0 m : Mach (Attrs J M))
    (h : Config.checkConf env st user m0 = (m, .ok cfg)) :
    ∃ pl input roi pl' expert, user.get "pipeline" = some (.obj pl) ∧
      checkInputSection env (getConfigInput user) (givesEstimation pl) = .ok input ∧
      checkRoiSection env.boolIsInt (getRoiConfig user) = .ok roi ∧
      checkPipelineJ st user m0 = (m, .ok (.cons "pipeline" (.obj pl') .nil)) ∧
      (∀ v, pl'.get "matching_cost" = some v → checkRightNodata input pl' = .ok ()) ∧
      checkExpert user = .ok expert ∧ cfg = input.append (roi.append (.cons "pipeline" (.obj pl') expert)) := by
  unfold Config.checkConf at h
  split at h
  · simp at h
  · rename_i pl hpl
    simp only at h
    split at h
    · simp at h
    · rename_i input hin
      split at h
      · simp at h
      · rename_i roi hroi
        split at h
        · simp at h
        · rename_i m' pipeline hp
          obtain ⟨u, pl0, pl', h1, h2, h3, h4, rfl⟩ := checkPipelineJ_form st user pipeline m0 m' hp
          split at h
          · simp at h
          · rename_i hnd
            split at h
            · simp at h
            · rename_i expert hex
              simp only [Prod.mk.injEq, Except.ok.injEq] at h
              obtain ⟨rfl, rfl⟩ := h
              refine ⟨pl, input, roi, pl', expert, hpl, hin, hroi, hp, ?_, hex, rfl⟩
              intro v hv
              simp only [Fields.get, if_pos, hv] at hnd
              exact hnd
  · simp at h

theorem input_keys (env : Config.Env) (user cfg : Fields) (est : Bool) (h : checkInputSection env user est = .ok cfg) :
    ∀ k ∈ cfg.keys, k = "input" := by
  obtain ⟨-, -, -, hv, -⟩ := checkInputSection_ok h
  unfold validateInput at hv
  have hs : dictOf [("input", inputSchema env)] (.obj cfg) = true := by
    by_contra hn
    simp [hn] at hv
  rw [dictOf_iff] at hs
  intro k hk
  simpa using hs.1 k hk

theorem expert_keys (user e : Fields) (h : checkExpert user = .ok e) : ∀ k ∈ e.keys, k = "expert_mode" := by
  unfold checkExpert at h
  split at h
  · simp only [Except.ok.injEq] at h; subst h; simp [Fields.keys]
  · simp only [Except.ok.injEq] at h; subst h; simp [Fields.keys]
  · split at h
    · simp at h
    · split_ifs at h
      simp only [Except.ok.injEq] at h
      subst h
      simp [Fields.keys]
  · simp at h

theorem getConfigInput_wf {user : Fields} (hw : user.wf) : (getConfigInput user).wf := by
  unfold getConfigInput
  split
  · rename_i v hv
    simp [Fields.wf, Fields.keys, Fields.wf_get user hw hv]
  · simp [Fields.wf]

theorem getConfigInput_get (user : Fields) : (getConfigInput user).get "input" = user.get "input" := by
  unfold getConfigInput
  split
  · rename_i v hv; simp [Fields.get, hv]
  · rename_i hv; simp [Fields.get, hv]

/-- The section of the ROI is the one of the user. -/
theorem roi_unchanged (bi : Bool) (user roi : Fields) (hw : user.wf) (h : checkRoiSection bi (getRoiConfig user) = .ok roi) :
    roi = getRoiConfig user ∧ ∀ v, user.get "ROI" = some v → RoiOk bi v := by
  unfold getRoiConfig at h ⊢
  split at h
  · rename_i v hv
    have hwv := Fields.wf_get user hw hv
    refine ⟨(C36_accepted_iff bi v hwv).2 roi h, ?_⟩
    rintro v' e
    rw [hv, Option.some.injEq] at e
    subst e
    exact (C36_accepted_iff bi v hwv).1.1 ⟨roi, h⟩
  · rename_i hv
    rw [C36_no_roi, Except.ok.injEq] at h
    exact ⟨h.symm, by simp [hv]⟩

/-- The sections of the checked configuration. -/
theorem checkConf_gets (env : Config.Env) (st : Steps J M) (user cfg : Fields) (m0 m : Mach (Attrs J M)) (hw : user.wf)
    (h : Config.checkConf env st user m0 = (m, .ok cfg)) :
    ∃ pl input pl', user.get "pipeline" = some (.obj pl) ∧
      checkInputSection env (getConfigInput user) (givesEstimation pl) = .ok input ∧
      checkPipelineJ st user m0 = (m, .ok (.cons "pipeline" (.obj pl') .nil)) ∧
      (∀ v, pl'.get "matching_cost" = some v → checkRightNodata input pl' = .ok ()) ∧
      (∀ v, user.get "ROI" = some v → RoiOk env.boolIsInt v) ∧
      cfg.get "input" = input.get "input" ∧ cfg.get "ROI" = user.get "ROI" ∧ cfg.get "pipeline" = some (.obj pl') := by
  obtain ⟨pl, input, roi, pl', expert, h1, h2, h3, h4, h5, h6, rfl⟩ := checkConf_sections env st user cfg m0 m h
  obtain ⟨rfl, hroi⟩ := roi_unchanged env.boolIsInt user roi hw h3
  refine ⟨pl, input, pl', h1, h2, h4, h5, hroi, ?_, ?_, ?_⟩
  · obtain ⟨inp, hi, -⟩ := input_ok env _ input _ h2
    rw [Fields.get_append, hi]
    rfl
  · have hi : input.get "ROI" = none := (Fields.get_eq_none _ _).2 fun hk => by
      have := input_keys env _ input _ h2 _ hk; simp at this
    have he : expert.get "ROI" = none := (Fields.get_eq_none _ _).2 fun hk => by
      have := expert_keys user expert h6 _ hk; simp at this
    rw [Fields.get_append, hi, Fields.get_append]
    simp only [Fields.get, he, Option.none_or]
    unfold getRoiConfig
    split
    · rename_i v hv; simp [Fields.get, hv]
    · rename_i hv; simp [Fields.get, hv]
  · have hi : input.get "pipeline" = none := (Fields.get_eq_none _ _).2 fun hk => by
      have := input_keys env _ input _ h2 _ hk; simp at this
    have hr : (getRoiConfig user).get "pipeline" = none := by
      unfold getRoiConfig
      split <;> simp [Fields.get]
    rw [Fields.get_append, hi, Fields.get_append, hr]
    simp [Fields.get]

end

end Verif.Props
