import Verif.Props.RunsRoi

/-!
# C125: executions with a ROI and an optical flow
-/

namespace Verif.Props

open Verif Verif.Config Verif.Machine Verif.ImgTools Verif.MatchingCost Verif.Disparity Verif.Estimation Verif.Run Verif.Main Verif.Spec
  Verif.Save Verif.Statistics

/-- The rows `a` to `b` of the image, disparities from -1 to 1, an optical flow. -/
def exUserFlowBand (a b : Int) (sr sc : Int) : Fields := dict [
  ("input", exInput (some (.int 0))),
  ("ROI", .obj (dict [("row", .obj (dict [("first", .int a), ("last", .int b)])), ("col", .obj (dict [("first", .int 0), ("last", .int 2)]))])),
  ("pipeline", .obj (exPipeline none sr sc (some exFlow)))]

/-- The window of a matching cost when Pandora always gives the same one. -/
theorem mc_window {M : Type} {pandora : PandoraMc M} {x s b : J} {m : M} (hp : ∀ f, pandora f = .ok (x, s, b, m)) {v c st wn : J} {mar : M}
    (h : matchingCostCheck pandora v = .ok (c, st, wn, mar)) : wn = x := by
  unfold matchingCostCheck at h
  simp only [hp] at h
  repeat' split at h
  all_goals first
    | (simp only [Except.ok.injEq, Prod.mk.injEq] at h; exact h.2.2.1.symm)
    | simp at h

/-- The configurations of the examples meet the hypotheses of C125, with windows of three pixels. -/
theorem exFlowBand_exactly (a b : Int) (hab : a < b ∧ b < 9) (sr sc : Nat) (ha : accepted (exWorldOf 1 9) (exUserFlowBand a b sr sc) = true) :
    (Main.main (exWorldOf 1 9) (exUserFlowBand a b sr sc)).2 = none ↔
      FlowAxis (NearRoi 9 a b (-1) 1 0 0) a sr 1 ∧ FlowAxis (NearRoi 3 0 2 (-1) 1 0 0) 0 sc 1 := by
  obtain ⟨m, cfg, h⟩ := accepted_ok ha
  have hull : HullIs (⟨.const 0, 1⟩ : Disp) (-1) 1 := by
    refine ⟨?_, ?_, ?_, ?_⟩ <;> simp only [InDispRange] <;> omega
  have hh : HalfWindowIs (exWorldOf 1 9) (dict [("matching_cost_method", .str "zncc"), ("window_size", .int 1),
      ("step", .arr (.cons (.int sr) (.cons (.int sc) .nil)))]) 1 := by
    obtain ⟨p0', cin, pl', c1, c2, c3, -, -, -, -, -⟩ := checkConf_gets _ _ _ cfg _ m
      (by simp [exUserFlowBand, exInput, exPipeline, exFlow, dict, Fields.append, Fields.wf, J.wf, Fields.keys]) h
    have hp : exPipeline none sr sc (some exFlow) = p0' := by
      have : (exUserFlowBand a b sr sc).get "pipeline" = some (.obj (exPipeline none sr sc (some exFlow))) := rfl
      rw [this, Option.some.injEq, J.obj.injEq] at c1
      exact c1
    subst hp
    obtain ⟨vm, cm', st, wn, mar, c', k1, k2, k3, k4, k5, k6⟩ := checked_with (v := exFlow)
      (by simp [exUserFlowBand, exInput, exPipeline, exFlow, dict, Fields.append, Fields.wf, J.wf, Fields.keys]) rfl c3 rfl
    have k1' : some vm = some _ := k1.symm
    rw [Option.some.injEq] at k1'
    subst k1'
    refine ⟨_, _, _, _, k2, ?_⟩
    rw [mc_window (fun _ => rfl) k2]
    exact .inl rfl
  rw [C125_runs_exactly_roi (exWorldOf 1 9) (exUserFlowBand a b sr sc) (exPipeline none sr sc (some exFlow)) _ cfg _ _ m 9 3 a b 0 2 sr sc
    ⟨.const 0, 1⟩ ⟨.const 0, 1⟩ (-1) 1 (-1) 1 ⟨0, 0, 0, 0⟩
    (by simp [exUserFlowBand, exInput, exPipeline, exFlow, dict, Fields.append, Fields.wf, J.wf, Fields.keys]) (exWorldOf_contract 1 9 (by decide)) rfl
    (by simp [exPipeline, dict, Fields.append, Fields.keys]) rfl (.inl ⟨_, _, rfl, .inl rfl, .inl rfl⟩) rfl
    ⟨_, _, _, _, _, _, _, rfl, rfl, rfl, rfl, rfl, rfl, rfl, .inl rfl, .inl rfl, .inl rfl, .inl rfl⟩
    ⟨hab.1, hab.2, by decide⟩ rfl rfl
    ⟨_, _, _, rfl, rfl, rfl, .inl rfl, .inl ⟨0, .inl rfl, rfl⟩⟩ ⟨_, _, _, rfl, rfl, rfl, .inl rfl, .inl ⟨0, .inl rfl, rfl⟩⟩ hull hull h rfl]
  constructor
  · rintro ⟨-, h⟩
    obtain ⟨half, h1, h2, h3⟩ := (h _ rfl).2 rfl
    obtain rfl := half_unique h1 hh
    exact ⟨h2, h3⟩
  · rintro ⟨h1, h2⟩
    refine ⟨.inr ⟨fun _ _ _ _ _ _ _ _ => rfl, fun _ _ _ _ _ _ _ _ => rfl⟩, fun f hf => ?_⟩
    have hf' : some (J.obj f) = some exFlow := hf.symm
    simp only [exFlow, Option.some.injEq, J.obj.injEq] at hf'
    subst hf'
    exact ⟨fun e => by simp [dict, Fields.get] at e, fun _ => ⟨1, hh, h1, h2⟩⟩

/-- The rows 2 to 7 with a step of two: the rows read are 1 to 8, each group of two rows holds a point, the execution ends. -/
example : (Main.main (exWorldOf 1 9) (exUserFlowBand 2 7 2 1)).2 = none := by
  refine (exFlowBand_exactly 2 7 (by decide) 2 1 (by decide +kernel)).2 ⟨⟨⟨4, ?_⟩, ?_⟩, ⟨1, ?_⟩, ?_⟩
  · exact ⟨by decide, by unfold NearRoi; decide, ⟨1, by decide, by unfold NearRoi; decide⟩, 1, by decide, by unfold NearRoi; decide⟩
  · intro a h1 h2 k hk
    have h3 := h2 1 (by unfold NearRoi; decide)
    unfold NearRoi at h1 hk
    norm_num at h1 hk
    exact ⟨a + (k : Int) * 2 + 1, by unfold NearRoi; norm_num; omega, by push_cast; omega, by push_cast; omega, by push_cast; omega⟩
  · exact ⟨by decide, by unfold NearRoi; decide, ⟨1, by decide, by unfold NearRoi; decide⟩, 1, by decide, by unfold NearRoi; decide⟩
  · intro a h1 h2 k hk
    exact ⟨_, hk, by push_cast; omega, by omega, by omega⟩

/-- The rows 1 to 8 with a step of two: the rows read are 0 to 8, the last one is alone in its group and is not a point, an exception is raised. -/
example : (Main.main (exWorldOf 1 9) (exUserFlowBand 1 8 2 1)).2 ≠ none := by
  intro h
  obtain ⟨⟨-, h⟩, -⟩ := (exFlowBand_exactly 1 8 (by decide) 2 1 (by decide +kernel)).1 h
  obtain ⟨y, h1, h2, h3, h4⟩ := h 0 (by unfold NearRoi; decide) (fun x hx => hx.1) 4 (by unfold NearRoi; decide)
  unfold NearRoi at h1
  norm_num at h1 h2 h3 h4
  omega

end Verif.Props
