import Verif.Props.Config

/-!
# Property C38: checking a checked configuration changes nothing
-/

namespace Verif.Props

open Verif Verif.Config Verif.Spec

/-- C38, disparity step. -/
theorem C38_disparity (bi : Bool) (v c : J) (h : disparityCheck bi v = .ok c) : disparityCheck bi c = .ok c := by
  cases v with
  | obj f =>
    unfold disparityCheck at h
    simp only at h
    split_ifs at h with hs
    have h' := Except.ok.inj h
    subst h'
    have key : fillInvalid (fillInvalid f) = fillInvalid f := by
      have hv : ∃ w, (fillInvalid f).get "invalid_disparity" = some w ∧ w ≠ .str "NaN" := by
        unfold fillInvalid
        split
        · exact ⟨_, by rw [Fields.get_set, if_pos rfl], by simp⟩
        · rename_i s hs'
          split_ifs with e
          · exact ⟨_, by rw [Fields.get_set, if_pos rfl], by simp⟩
          · exact ⟨_, hs', by simpa using e⟩
        · rename_i w hw hne
          exact ⟨w, hne, fun e => hw "NaN" (by rw [← e])⟩
      obtain ⟨w, hw, hne⟩ := hv
      clear hs h
      generalize fillInvalid f = g at hw
      unfold fillInvalid
      rw [hw]
      split
      · rename_i hx; simp at hx
      · rename_i s hx
        rw [Option.some.injEq] at hx
        rw [if_neg]
        rintro rfl
        exact hne hx
      · rfl
    unfold disparityCheck
    simp only
    rw [key, if_pos hs]
  | _ => simp [disparityCheck] at h

/-- C38, estimation step. -/
theorem C38_estimation (bi : Bool) (v c : J) (h : estimationCheck bi v = .ok c) : estimationCheck bi c = .ok c := by
  cases v with
  | obj f =>
    unfold estimationCheck at h
    simp only at h
    split at h
    · simp at h
    · rename_i s hm
      split_ifs at h with e hs
      have h' := Except.ok.inj h
      subst h'
      have hm' : (fillEstimation f).get "estimation_method" = some (.str s) := by
        unfold fillEstimation
        exact setDefault_keeps _ _ (setDefault_keeps _ _ (setDefault_keeps _ _ hm))
      have g1 : ∃ w, (fillEstimation f).get "range_col" = some w := by
        unfold fillEstimation
        exact ⟨_, setDefault_keeps _ _ (setDefault_keeps _ _ (by rw [Fields.get_setDefault, if_pos rfl]))⟩
      have g2 : ∃ w, (fillEstimation f).get "range_row" = some w := by
        unfold fillEstimation
        exact ⟨_, setDefault_keeps _ _ (by rw [Fields.get_setDefault, if_pos rfl])⟩
      have g3 : ∃ w, (fillEstimation f).get "sample_factor" = some w := by
        unfold fillEstimation
        exact ⟨_, by rw [Fields.get_setDefault, if_pos rfl]⟩
      obtain ⟨w1, g1⟩ := g1
      obtain ⟨w2, g2⟩ := g2
      obtain ⟨w3, g3⟩ := g3
      have key : fillEstimation (fillEstimation f) = fillEstimation f := by
        clear hs h hm'
        generalize fillEstimation f = g at g1 g2 g3
        unfold fillEstimation
        rw [Fields.setDefault_of_get _ g1, Fields.setDefault_of_get _ g2, Fields.setDefault_of_get _ g3]
      unfold estimationCheck
      simp only [hm']
      rw [if_pos e, key, if_pos hs]
    · simp at h
  | _ => simp [estimationCheck] at h

theorem capIterations_again (f : Fields) : capIterations (capIterations f) = capIterations f := by
  cases hi : f.get "iterations" with
  | none =>
    have : capIterations f = f := by unfold capIterations; rw [hi]
    rw [this, this]
  | some v =>
    by_cases e : pyInt v > nbMaxIter
    · have : capIterations f = f.set "iterations" (.int nbMaxIter) := by unfold capIterations; rw [hi]; simp only; rw [if_pos e]
      rw [this]
      unfold capIterations
      rw [Fields.get_set, if_pos rfl]
      simp only
      rw [if_neg]
      simp [pyInt, intVal]
    · have : capIterations f = f := by unfold capIterations; rw [hi]; simp only; rw [if_neg e]
      rw [this, this]

theorem capIterations_schema (bi : Bool) (f : Fields) (h : dichotomySchema bi (.obj f) = true) :
    dichotomySchema bi (.obj (capIterations f)) = true := by
  unfold capIterations
  split
  · rename_i v hv
    split_ifs with e
    · unfold dichotomySchema at h ⊢
      rw [dictOf_iff] at h ⊢
      obtain ⟨h1, h2⟩ := h
      refine ⟨?_, ?_⟩
      · rw [Fields.keys_set, if_pos (Fields.mem_of_get hv)]; exact h1
      · intro p hp
        have hp' := hp
        simp only [List.mem_cons, List.not_mem_nil, or_false] at hp
        rcases hp with rfl | rfl | rfl
        · obtain ⟨w, a, b⟩ := h2 _ hp'
          exact ⟨w, by rw [Fields.get_set, if_neg (by decide)]; exact a, b⟩
        · refine ⟨.int nbMaxIter, by rw [Fields.get_set, if_pos rfl], ?_⟩
          rw [intAnd_iff]
          exact ⟨nbMaxIter, Or.inl rfl, by decide⟩
        · obtain ⟨w, a, b⟩ := h2 _ hp'
          exact ⟨w, by rw [Fields.get_set, if_neg (by decide)]; exact a, b⟩
    · exact h
  · exact h

/-- C38, refinement steps: with the same step and window size from the machine. -/
theorem C38_refinement (bi : Bool) (v c : J) (step window : Option J) (hw : v.wf)
    (h : refinementCheck bi v step window = .ok c) : refinementCheck bi c step window = .ok c := by
  cases v with
  | obj f =>
    have hf : f.wf := by simpa [J.wf] using hw
    have hk := Fields.wf_keys f hf
    unfold refinementCheck at h
    simp only at h
    split at h
    · simp at h
    · rename_i s hm
      split_ifs at h with e1 e2 e3
      · unfold dichotomyCheck at h
        split_ifs at h with hs
        split at h
        · rename_i w hfil
          split at h
          · simp at h
          · rename_i hfc
            have h' := Except.ok.inj h
            subst h'
            have hm' : (capIterations f).get "refinement_method" = some (.str s) := by
              unfold capIterations
              split
              · split_ifs
                · rw [Fields.get_set, if_neg (by decide)]; exact hm
                · exact hm
              · exact hm
            unfold refinementCheck
            simp only [hm']
            rw [if_pos e1]
            unfold dichotomyCheck
            rw [if_pos (capIterations_schema bi f hs), capIterations_again, hfil]
            simp only [hfc]
        · simp at h
      · unfold opticalFlowCheck at h
        split_ifs at h with hs
        have h' := Except.ok.inj h
        subst h'
        have hm' : (fillOpticalFlow f step window).get "refinement_method" = some (.str s) := by
          unfold fillOpticalFlow
          apply setDefault_keeps
          rw [Fields.get_set, if_neg (by decide), Fields.get_set, if_neg (by decide)]
          exact hm
        have hn : (fillOpticalFlow f step window).keys.Nodup := by
          unfold fillOpticalFlow
          exact Fields.keys_setDefault_nodup _ _ _ (Fields.keys_set_nodup _ _ _ (Fields.keys_set_nodup _ _ _ hk))
        have g1 : (fillOpticalFlow f step window).get "window_size" = some (window.getD .null) := by
          unfold fillOpticalFlow
          apply setDefault_keeps
          rw [Fields.get_set, if_neg (by decide), Fields.get_set, if_pos rfl]
        have g2 : (fillOpticalFlow f step window).get "step" =
            some (step.getD (.arr (.cons (.int 1) (.cons (.int 1) .nil)))) := by
          unfold fillOpticalFlow
          apply setDefault_keeps
          rw [Fields.get_set, if_pos rfl]
        have g3 : ∃ w, (fillOpticalFlow f step window).get "iterations" = some w := by
          unfold fillOpticalFlow
          exact ⟨_, by rw [Fields.get_setDefault, if_pos rfl]⟩
        obtain ⟨w3, g3⟩ := g3
        have key : fillOpticalFlow (fillOpticalFlow f step window) step window = fillOpticalFlow f step window := by
          clear hs h hm'
          generalize fillOpticalFlow f step window = g at g1 g2 g3 hn
          unfold fillOpticalFlow
          rw [Fields.set_get_self g _ _ hn g1, Fields.set_get_self g _ _ hn g2, Fields.setDefault_of_get _ g3]
        unfold refinementCheck
        simp only [hm']
        rw [if_neg e1, if_pos e2]
        unfold opticalFlowCheck
        rw [key, if_pos hs]
      · unfold interpolationCheck at h
        split_ifs at h with hs
        have h' := Except.ok.inj h
        subst h'
        unfold refinementCheck
        simp only [hm]
        rw [if_neg e1, if_neg e2, if_pos e3]
        unfold interpolationCheck
        rw [if_pos hs]
    · simp at h
  | _ => simp [refinementCheck] at h

/-- Contract of Pandora for C38: given back the values it has chosen, Pandora chooses the same. -/
def PandoraStable {M : Type} (pandora : PandoraMc M) : Prop :=
  ∀ f method sc w subpix spline m, f.get "matching_cost_method" = some method → f.get "step" = some sc →
    pandora f = .ok (w, subpix, spline, m) →
    pandora (.cons "matching_cost_method" method (.cons "step" sc (.cons "window_size" w (.cons "subpix" subpix
      (.cons "spline_order" spline .nil))))) = .ok (w, subpix, spline, m)

theorem mc_again {M : Type} (pandora : PandoraMc M) (method sr sc w subpix spline : J) (m : M)
    (hs : (strIn ["ssd", "sad", "zncc", "mc_cnn"] method && stepSchema (.arr (.cons sr (.cons sc .nil)))) = true)
    (hp : pandora (.cons "matching_cost_method" method (.cons "step" sc (.cons "window_size" w (.cons "subpix" subpix
      (.cons "spline_order" spline .nil))))) = .ok (w, subpix, spline, m)) :
    matchingCostCheck pandora (.obj (.cons "matching_cost_method" method (.cons "step" (.arr (.cons sr (.cons sc .nil)))
      (.cons "window_size" w (.cons "subpix" subpix (.cons "spline_order" spline .nil)))))) =
    .ok (.obj (.cons "matching_cost_method" method (.cons "step" (.arr (.cons sr (.cons sc .nil)))
      (.cons "window_size" w (.cons "subpix" subpix (.cons "spline_order" spline .nil))))), .arr (.cons sr (.cons sc .nil)), w, m) := by
  have e1 : (Fields.cons "matching_cost_method" method (.cons "step" (.arr (.cons sr (.cons sc .nil)))
      (.cons "window_size" w (.cons "subpix" subpix (.cons "spline_order" spline .nil))))).get "matching_cost_method" =
      some method := by rw [Fields.get, if_pos rfl]
  have e2 : (Fields.cons "matching_cost_method" method (.cons "step" (.arr (.cons sr (.cons sc .nil)))
      (.cons "window_size" w (.cons "subpix" subpix (.cons "spline_order" spline .nil))))).get "step" =
      some (.arr (.cons sr (.cons sc .nil))) := by rw [Fields.get, if_neg (by decide), Fields.get, if_pos rfl]
  have e3 : (Fields.cons "matching_cost_method" method (.cons "step" (.arr (.cons sr (.cons sc .nil)))
      (.cons "window_size" w (.cons "subpix" subpix (.cons "spline_order" spline .nil))))).set "step" sc =
      .cons "matching_cost_method" method (.cons "step" sc (.cons "window_size" w (.cons "subpix" subpix
      (.cons "spline_order" spline .nil)))) := by rw [Fields.set, if_neg (by decide), Fields.set, if_pos rfl]
  rw [matchingCostCheck, e1]
  dsimp only
  rw [e2]
  dsimp only [Option.getD_some]
  rw [if_pos hs, e3, hp]

/-- C38, matching cost step. -/
theorem C38_matching_cost {M : Type} (pandora : PandoraMc M) (hp : PandoraStable pandora) (v c step w : J) (m : M)
    (h : matchingCostCheck pandora v = .ok (c, step, w, m)) : matchingCostCheck pandora c = .ok (c, step, w, m) := by
  cases v with
  | obj f =>
    unfold matchingCostCheck at h
    simp only at h
    split at h
    · simp at h
    · rename_i method hm
      split_ifs at h with hs
      split at h
      · rename_i sr sc hst
        split at h
        · simp at h
        · rename_i w' subpix spline m' hpan
          simp only [Except.ok.injEq, Prod.mk.injEq] at h
          obtain ⟨rfl, rfl, rfl, rfl⟩ := h
          have := hp _ method sc w' subpix spline m' (by rw [Fields.get_set, if_neg (by decide)]; exact hm)
            (by rw [Fields.get_set, if_pos rfl]) hpan
          rw [hst] at hs ⊢
          clear hpan hst hm
          exact mc_again pandora method sr sc w' subpix spline m' hs this
      · simp at h
  | _ => simp [matchingCostCheck] at h

/-- C38, input section (without estimation). -/
theorem C38_input_section (env : Env) (user cfg : Fields) (hw : user.wf) (h : checkInputSection env user false = .ok cfg) :
    checkInputSection env cfg false = .ok cfg := by
  obtain ⟨c, h1, h2, h3, h4⟩ := checkInputSection_ok h
  simp only [Bool.false_eq_true, if_false] at h2
  subst h2
  have hin : ∃ w, c.get "input" = some w := by
    rw [← Option.isSome_iff_exists, Fields.get_isSome, updateConf_keys _ _ _ h1, mem_newKeys]
    exact Or.inr ((Fields.get_isSome user "input").1 h4)
  obtain ⟨w, hin⟩ := hin
  unfold checkInputSection
  rw [hin]
  simp only [Bool.false_eq_true, if_false]
  rw [updateConf_again user defaultInput c hw defaultInput_wf defaultInput_normal h1]
  simp only [h3]

/-- C38, ROI section. -/
theorem C38_roi_section (bi : Bool) (v : J) (out : Fields) (hw : v.wf) (h : checkRoiSection bi (.cons "ROI" v .nil) = .ok out) :
    checkRoiSection bi out = .ok out := by
  have := (C36_accepted_iff bi v hw).2 out h
  rw [this] at h ⊢
  exact h

/-- Tests: one accepted configuration per step. -/
example : (disparityCheck false (.obj (mk [("disparity_method", .str "wta"), ("invalid_disparity", .str "NaN")]))).toOption.isSome
    = true := by decide +kernel
example : (estimationCheck false (.obj (mk [("estimation_method", .str "phase_cross_correlation"), ("range_row", .int 7)]))).toOption.isSome
    = true := by decide +kernel
example : refinementCheck false (.obj (mk [("refinement_method", .str "dichotomy"), ("iterations", .int 12),
      ("filter", .obj (mk [("method", .str "sinc"), ("size", .int 8)]))])) none none =
    .ok (.obj (mk [("refinement_method", .str "dichotomy"), ("iterations", .int 9),
      ("filter", .obj (mk [("method", .str "sinc"), ("size", .int 8)]))])) := by decide +kernel
example : (refinementCheck false (.obj (mk [("refinement_method", .str "optical_flow")]))
      (some (.arr (.cons (.int 2) (.cons (.int 1) .nil)))) (some (.int 5))).toOption.isSome = true := by decide +kernel

/-- A Pandora which gives the defaults 5, 1, 1. -/
def testPandora : PandoraMc Nat := fun f =>
  .ok ((f.get "window_size").getD (.int 5), (f.get "subpix").getD (.int 1), (f.get "spline_order").getD (.int 1), 2)

example : PandoraStable testPandora := by
  intro f method sc w subpix spline m _ _ h
  simp only [testPandora, Except.ok.injEq, Prod.mk.injEq] at h ⊢
  simp only [Fields.get, if_true, String.reduceEq, if_false, Option.getD_some]
  exact ⟨trivial, trivial, trivial, h.2.2.2⟩

example : (matchingCostCheck testPandora (.obj (mk [("matching_cost_method", .str "sad")]))).toOption.isSome = true := by
  decide +kernel

end Verif.Props
