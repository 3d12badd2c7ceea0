import Verif.Props.SavedAgain

/-!
# Property C60 on whole executions: the saved configuration is accepted exactly when there is neither a ROI nor an estimation
-/

namespace Verif.Props

open Verif Verif.Config Verif.Machine Verif.ImgTools Verif.MatchingCost Verif.Disparity Verif.Estimation Verif.Run Verif.Main Verif.Spec
  Verif.Save Verif.Statistics

set_option linter.unusedSectionVars false

variable {K : Type} [Field K] [LinearOrder K] [IsStrictOrderedRing K] [FloorRing K]

/-- C60, when the configuration of the user has neither a ROI nor an estimation: the configuration saved by an execution is accepted by the checks, and only
then. Missing: the configurations with a ROI or an estimation (`C60_saved_false`). -/
theorem C60_saved_partial {w : World K} (hp : PandoraKeeps w.pandora) {user p0 saved : Fields} {out : List (Written K)} (hw : user.wf)
    (hu : user.get "pipeline" = some (.obj p0)) (h : Main.main w user = (out, none)) (hs : .config saved ∈ out) (hsw : saved.wf) :
    (∃ m cfg, Config.checkConf w.env w.steps saved (fresh .init) = (m, .ok cfg)) ↔ user.get "ROI" = none ∧ p0.get "estimation" = none := by
  constructor
  · rintro ⟨m, cfg, hc⟩
    by_contra hn
    rw [not_and_or] at hn
    exact saved_unaccepted hw hu h hs hsw hn m cfg hc
  · rintro ⟨h1, h2⟩
    obtain ⟨m, cfg, -, -, hc, -⟩ := main_ok w saved out (C95_saved_again hp hw hu h hs hsw h1 h2)
    exact ⟨m, cfg, hc⟩

/-- C60 on whole executions, full statement: the configuration saved by an execution is accepted by the checks. -/
def C60SavedStatement (K : Type) [Field K] [LinearOrder K] [IsStrictOrderedRing K] [FloorRing K] : Prop :=
  ∀ (w : World K) (user saved : Fields) (out : List (Written K)), PandoraKeeps w.pandora → user.wf → saved.wf →
    Main.main w user = (out, none) → .config saved ∈ out → ∃ m cfg, Config.checkConf w.env w.steps saved (fresh .init) = (m, .ok cfg)

/-- An execution with a ROI and a dichotomy saves a configuration which the checks refuse. -/
theorem C60_saved_false : ¬ C60SavedStatement ℚ := by
  intro st
  have hw : (exUserWith none 1 1 (some exDicho) (some (.str "grid.tif"))).wf := by
    simp [exUserWith, exInput, exPipeline, exDicho, dict, Fields.append, Fields.wf, J.wf, Fields.keys]
  obtain ⟨out, e, h⟩ : ∃ out e, Main.main exWorldI (exUserWith none 1 1 (some exDicho) (some (.str "grid.tif"))) = (out, e) := ⟨_, _, rfl⟩
  have he := exRoi_runs
  rw [h] at he
  simp only at he
  subst he
  obtain ⟨saved, hs⟩ := saves_config h
  have hsw := saved_wf exWorldI_contract.keeps (fun _ _ => trivial) (fun _ _ _ => ⟨trivial, trivial⟩) hw h hs
  have := (C60_saved_partial exWorldI_contract.keeps hw rfl h hs hsw).1 (st _ _ _ _ exWorldI_contract.keeps hw hsw h hs)
  exact absurd this.1 (by decide)

/-- An optical flow on full images: the saved configuration is accepted. -/
example : ∃ out saved m cfg, Main.main (exWorldOf 1) (exUserWhole 2 1 (some exFlow) (some (.int 0))) = (out, none) ∧ .config saved ∈ out ∧
    Config.checkConf (exWorldOf 1).env (exWorldOf 1).steps saved (fresh .init) = (m, .ok cfg) := by
  have hw : (exUserWhole 2 1 (some exFlow) (some (.int 0))).wf := by
    simp [exUserWhole, exInput, exPipeline, exFlow, dict, Fields.append, Fields.wf, J.wf, Fields.keys]
  obtain ⟨out, e, h⟩ : ∃ out e, Main.main (exWorldOf 1) (exUserWhole 2 1 (some exFlow) (some (.int 0))) = (out, e) := ⟨_, _, rfl⟩
  have he := exFlow_runs
  rw [h] at he
  simp only at he
  subst he
  obtain ⟨saved, hs⟩ := saves_config h
  have hk := (exWorldOf_contract 1 5 (by decide)).keeps
  obtain ⟨m, cfg, hc⟩ := (C60_saved_partial hk hw rfl h hs
    (saved_wf hk (fun _ _ => trivial) (fun _ _ _ => ⟨trivial, trivial⟩) hw h hs)).2 ⟨rfl, rfl⟩
  exact ⟨out, saved, m, cfg, h, hs, hc⟩

end Verif.Props
