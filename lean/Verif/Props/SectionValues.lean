import Verif.Props.Rebuild

/-!
# C37: the sections of the pipeline in the checked configuration

The section of a step in the configuration returned by `check_conf` is the section of the user completed by the defaults of the step.
-/

namespace Verif.Props

open Verif Verif.Config Verif.Machine Verif.Spec

variable {M : Type}

theorem at_convAll : (p : List String) → (v : J) → v.convAll.at p = (v.at p).map J.convAll
  | [], v => by cases v <;> simp [J.at]
  | k :: p, .obj f => by
    simp only [J.convAll, J.at, Fields.get_convAll]
    cases f.get k with
    | none => rfl
    | some x => exact at_convAll p x
  | _ :: _, .null => rfl
  | _ :: _, .bool _ => rfl
  | _ :: _, .int _ => rfl
  | _ :: _, .float _ => rfl
  | _ :: _, .arr _ => rfl
  | _ :: _, .str s => by
    have h : (conv (.str s)).isLeaf = true := conv_leaf rfl
    simp only [J.convAll, J.at, Option.map_none]
    cases hc : conv (.str s) with
    | obj f => rw [hc] at h; simp [J.isLeaf] at h
    | _ => simp [J.at]

/-- A section which has the values of the user (read), and the defaults, key by key. -/
theorem completed_of {ks : List String} {d f g : Fields}
    (h : ∀ k, k ∉ ks → g.get k = (f.convAll.get k).or (d.get k)) : Completed ks d f g := by
  constructor
  · intro k p v hk hv hl
    have h1 := at_convAll (k :: p) (.obj f)
    rw [hv, Option.map_some, convAll_leaf hl, conv_eq] at h1
    simp only [J.convAll, J.at] at h1 ⊢
    rw [h k hk]
    cases hf : f.convAll.get k with
    | none => rw [hf] at h1; simp at h1
    | some x => rw [hf] at h1; simpa using h1
  · intro k hk hf
    rw [h k hk, Fields.get_convAll, hf]
    rfl

/-- The checked section of the estimation. -/
theorem estimation_completed {bi : Bool} {v c v' : J} (hw : v.wf) (hc : estimationCheck bi v.convAll = .ok c)
    (hu : updateVal (some v.convAll) c = .ok v') : ∃ f g, v = .obj f ∧ v' = .obj g ∧ Completed [] estimationDefaults f g := by
  have inv : ∃ f, v.convAll = .obj f ∧ c = .obj (fillEstimation f) := by
    cases hv : v.convAll with
    | obj f =>
      rw [hv] at hc
      simp only [estimationCheck] at hc
      split at hc
      · simp at hc
      · split_ifs at hc with _ hs
        exact ⟨f, rfl, (Except.ok.inj hc).symm⟩
      · simp at hc
    | _ => rw [hv] at hc; simp [estimationCheck] at hc
  obtain ⟨fc, h1, rfl⟩ := inv
  obtain ⟨f, rfl, rfl⟩ := convAll_eq_obj h1
  have hfw : f.convAll.wf := convAlls_wf f (by simpa [J.wf] using hw)
  have hfill : Fills f.convAll (fillEstimation f.convAll) := by
    unfold fillEstimation
    exact (((Fills.refl (Fields.wf_keys _ hfw)).setDefault _ _ rfl rfl).setDefault _ _ rfl rfl).setDefault _ _ rfl rfl
  simp only [J.convAll, updateVal, hfill.merge hfw (convAlls_normal f), Except.map, Except.ok.injEq] at hu
  refine ⟨f, _, rfl, hu.symm, completed_of fun k _ => ?_⟩
  simp only [fillEstimation, Fields.get_setDefault, estimationDefaults, Fields.get]
  by_cases e1 : "sample_factor" = k
  · subst e1; cases f.convAll.get "sample_factor" <;> simp
  · by_cases e2 : "range_row" = k
    · subst e2; cases f.convAll.get "range_row" <;> simp
    · by_cases e3 : "range_col" = k
      · subst e3; cases f.convAll.get "range_col" <;> simp
      · simp [e1, e2, e3]

/-- The checked section of the disparity. -/
theorem disparity_completed {bi : Bool} {v c v' : J} (hw : v.wf) (hc : disparityCheck bi v.convAll = .ok c)
    (hu : updateVal (some v.convAll) c = .ok v') : ∃ f g, v = .obj f ∧ v' = .obj g ∧ Completed [] disparityDefaults f g := by
  have inv : ∃ f, v.convAll = .obj f ∧ c = .obj (fillInvalid f) := by
    cases hv : v.convAll with
    | obj f =>
      rw [hv] at hc
      simp only [disparityCheck] at hc
      split_ifs at hc with hs
      exact ⟨f, rfl, (Except.ok.inj hc).symm⟩
    | _ => rw [hv] at hc; simp [disparityCheck] at hc
  obtain ⟨fc, h1, rfl⟩ := inv
  obtain ⟨f, rfl, rfl⟩ := convAll_eq_obj h1
  have hfw : f.convAll.wf := convAlls_wf f (by simpa [J.wf] using hw)
  have hfill : Fills f.convAll (fillInvalid f.convAll) := by
    have h0 := Fills.refl (Fields.wf_keys _ hfw)
    unfold fillInvalid
    split
    · exact h0.set _ _ rfl rfl
    · split_ifs
      · exact h0.set _ _ rfl rfl
      · exact h0
    · exact h0
  simp only [J.convAll, updateVal, hfill.merge hfw (convAlls_normal f), Except.map, Except.ok.injEq] at hu
  refine ⟨f, _, rfl, hu.symm, completed_of fun k _ => ?_⟩
  have hno : f.convAll.get "invalid_disparity" ≠ some (.str "NaN") := by
    intro h
    have := Fields.normal_get _ (convAlls_normal f) h
    simp [J.normal, conv] at this
  simp only [disparityDefaults, Fields.get]
  unfold fillInvalid
  split
  · rename_i hn
    rw [Fields.get_set]
    split_ifs with e
    · subst e; rw [hn]; rfl
    · simp
  · rename_i s hs
    rw [if_neg (fun e => hno (by rw [hs, e]))]
    split_ifs with e
    · subst e; rw [hs]; rfl
    · simp
  · rename_i hx
    split_ifs with e
    · subst e; rw [hx]; rfl
    · simp

/-- The checked section of the matching cost. -/
theorem matching_cost_completed {pandora : PandoraMc M} {v c v' st wn : J} {mar : M}
    (hc : matchingCostCheck pandora v.convAll = .ok (c, st, wn, mar)) (hu : updateVal (some v.convAll) c = .ok v') :
    ∃ f g, v = .obj f ∧ v' = .obj g ∧ Completed ["window_size", "subpix", "spline_order"] matchingCostDefaults f g := by
  cases hv : v.convAll with
  | obj fc =>
    rw [hv] at hc
    obtain ⟨f, rfl, rfl⟩ := convAll_eq_obj hv
    simp only [matchingCostCheck] at hc
    cases hm : f.convAll.get "matching_cost_method" with
    | none => rw [hm] at hc; simp at hc
    | some method =>
      rw [hm] at hc
      simp only at hc
      split_ifs at hc with hs
      split at hc
      · rename_i a b he
        split at hc
        · simp at hc
        · rename_i w' sub spl m' hpd
          simp only [Except.ok.injEq, Prod.mk.injEq] at hc
          obtain ⟨rfl, -, rfl, rfl⟩ := hc
          obtain ⟨g, rfl, hg⟩ := updateVal_obj hu
          refine ⟨f, g, rfl, rfl, completed_of fun k hk => ?_⟩
          simp only [List.mem_cons, List.not_mem_nil, or_false, not_or] at hk
          have hcn : (Fields.cons "matching_cost_method" method (.cons "step" (.arr (.cons a (.cons b .nil)))
              (.cons "window_size" w' (.cons "subpix" sub (.cons "spline_order" spl .nil))))).keys.Nodup := by simp [Fields.keys]
          simp only [matchingCostDefaults, Fields.get]
          by_cases e1 : k = "matching_cost_method"
          · subst e1
            have hmeth : method.isLeaf = true ∧ conv method = method := by
              rw [Bool.and_eq_true] at hs
              have h1 := hs.1
              have h2 := Fields.normal_get _ (convAlls_normal f) hm
              cases method with
              | str s => exact ⟨rfl, by simpa [J.normal] using h2⟩
              | _ => simp [strIn] at h1
            rw [merged_leaf (k := "matching_cost_method") (v := method) hcn hg (by simp [Fields.get]) hmeth.1, hmeth.2, hm]
            rfl
          · by_cases e2 : k = "step"
            · subst e2
              rw [merged_leaf (k := "step") (v := .arr (.cons a (.cons b .nil))) hcn hg (by simp [Fields.get]) rfl]
              cases hst : f.convAll.get "step" with
              | none =>
                rw [hst, Option.getD_none] at he
                rw [← he]
                simp [conv]
              | some x =>
                rw [hst, Option.getD_some] at he
                rw [he]
                simp [conv]
            · have hnone : (Fields.cons "matching_cost_method" method (.cons "step" (.arr (.cons a (.cons b .nil)))
                  (.cons "window_size" w' (.cons "subpix" sub (.cons "spline_order" spl .nil))))).get k = none := by
                rw [Fields.get_eq_none]
                simp [Fields.keys, e1, e2, hk.1, hk.2.1, hk.2.2]
              rw [(updateConf_get _ _ _ hcn hg k).1 hnone, if_neg (Ne.symm e2), Option.or_none]
      · simp at hc
  | _ => rw [hv] at hc; simp [matchingCostCheck] at hc

/-- What the section of a refinement becomes, by method. -/
def RefinementCompleted (f g : Fields) : Prop :=
  (f.get "refinement_method" = some (.str "dichotomy") ∧ Completed ["iterations"] .nil f g ∧
    ∃ v n, f.get "iterations" = some v ∧ IsInt true v n ∧
      g.get "iterations" = some (if n ≤ 9 then v else .int 9)) ∨
  (f.get "refinement_method" = some (.str "optical_flow") ∧ Completed ["window_size", "step"] opticalFlowDefaults f g) ∨
  (f.get "refinement_method" = some (.str "interpolation") ∧ Completed [] .nil f g)

/-- The checked section of a refinement. -/
theorem refinement_completed {bi : Bool} {v c v' : J} {st wn : Option J} (hw : v.wf) (hc : refinementCheck bi v.convAll st wn = .ok c)
    (hu : updateVal (some v.convAll) c = .ok v') : ∃ f g, v = .obj f ∧ v' = .obj g ∧ RefinementCompleted f g := by
  cases hv : v.convAll with
  | obj fc =>
    rw [hv] at hc
    obtain ⟨f, rfl, rfl⟩ := convAll_eq_obj hv
    have hfw : f.convAll.wf := convAlls_wf f (by simpa [J.wf] using hw)
    have hnd := Fields.wf_keys _ hfw
    simp only [refinementCheck] at hc
    split at hc
    · simp at hc
    · rename_i s hs
      have hm : f.get "refinement_method" = some (.str s) := by
        rw [Fields.get_convAll, Option.map_eq_some_iff] at hs
        obtain ⟨x, hx, hx'⟩ := hs
        rw [hx, convAll_eq_str hx']
      split_ifs at hc with e1 e2 e3
      · subst e1
        unfold dichotomyCheck at hc
        split_ifs at hc with hsch
        split at hc
        · split at hc
          · simp at hc
          · have hcc := (Except.ok.inj hc).symm
            have hcap : Fills f.convAll (capIterations f.convAll) := by
              have h0 := Fills.refl hnd
              unfold capIterations
              split
              · split_ifs
                · exact h0.set _ _ rfl rfl
                · exact h0
              · exact h0
            rw [hcc] at hu
            simp only [J.convAll, updateVal, hcap.merge hfw (convAlls_normal f), Except.map, Except.ok.injEq] at hu
            refine ⟨f, _, rfl, hu.symm, Or.inl ⟨hm, completed_of fun k hk => ?_, ?_⟩⟩
            · simp only [List.mem_singleton] at hk
              simp only [Fields.get, Option.or_none]
              unfold capIterations
              split
              · split_ifs
                · rw [Fields.get_set, if_neg (Ne.symm hk)]
                · rfl
              · rfl
            · unfold dichotomySchema at hsch
              rw [dictOf_iff] at hsch
              obtain ⟨x, hx, hx'⟩ := hsch.2 _ (List.mem_cons_of_mem _ List.mem_cons_self)
              simp only at hx hx'
              rw [intAnd_iff] at hx'
              obtain ⟨i, hi, -⟩ := hx'
              have hp := pyInt_of (isInt_true hi)
              have hx0 := hx
              rw [Fields.get_convAll, Option.map_eq_some_iff] at hx
              obtain ⟨u, hu1, rfl⟩ := hx
              have hui : IsInt true u i := isInt_convAll.1 (isInt_true hi)
              have huc : u.convAll = u := by
                rw [convAll_leaf (isInt_leaf hui).1, (isInt_leaf hui).2]
              refine ⟨u, i, hu1, hui, ?_⟩
              unfold capIterations
              rw [hx0]
              simp only [hp, nbMaxIter]
              split_ifs with h9 h9' h9'
              · omega
              · rw [Fields.get_set, if_pos rfl]
              · rw [hx0, huc]
              · omega
        · simp at hc
      · subst e2
        unfold opticalFlowCheck at hc
        split_ifs at hc
        have hcc := (Except.ok.inj hc).symm
        subst hcc
        obtain ⟨g, rfl, hg⟩ := updateVal_obj hu
        refine ⟨f, g, rfl, rfl, Or.inr (Or.inl ⟨hm, completed_of fun k hk => ?_⟩)⟩
        simp only [List.mem_cons, List.not_mem_nil, or_false, not_or] at hk
        have hcn : (fillOpticalFlow f.convAll st wn).keys.Nodup :=
          Fields.keys_setDefault_nodup _ _ _ (Fields.keys_set_nodup _ _ _ (Fields.keys_set_nodup _ _ _ hnd))
        have hget : (fillOpticalFlow f.convAll st wn).get k = (f.convAll.get k).or (opticalFlowDefaults.get k) := by
          simp only [fillOpticalFlow, Fields.get_setDefault, Fields.get_set, opticalFlowDefaults, Fields.get]
          by_cases e : "iterations" = k
          · subst e
            cases f.convAll.get "iterations" <;> simp
          · simp [e, Ne.symm hk.1, Ne.symm hk.2]
        have hmerge := updateConf_get _ _ _ hcn hg k
        rw [← hget]
        cases hx : (fillOpticalFlow f.convAll st wn).get k with
        | none =>
          rw [hmerge.1 hx]
          rw [hx] at hget
          have := hget.symm
          rw [Option.or_eq_none_iff] at this
          exact this.1
        | some y =>
          obtain ⟨y', h1, h2⟩ := hmerge.2 y hx
          rw [h2]
          rw [hx] at hget
          cases hf : f.convAll.get k with
          | none =>
            rw [hf, Option.none_or] at hget
            simp only [opticalFlowDefaults, Fields.get] at hget
            split_ifs at hget
            rw [Option.some.injEq] at hget
            subst hget
            rw [updateVal_leaf _ rfl, Except.ok.injEq] at h1
            rw [← h1]
            rfl
          | some z =>
            rw [hf, Option.some_or, Option.some.injEq] at hget
            subst hget
            rw [hf, updateVals_self _ hfw (convAlls_normal f) k y hf, Except.ok.injEq] at h1
            rw [h1]
      · subst e3
        unfold interpolationCheck at hc
        split_ifs at hc
        have hcc := (Except.ok.inj hc).symm
        subst hcc
        simp only [J.convAll, updateVal, (Fills.refl hnd).merge hfw (convAlls_normal f), Except.map, Except.ok.injEq] at hu
        refine ⟨f, _, rfl, hu.symm, Or.inr (Or.inr ⟨hm, completed_of fun k _ => ?_⟩)⟩
        simp [Fields.get]
    · simp at hc
  | _ => rw [hv] at hc; simp [refinementCheck] at hc

/-- C37 for the whole check: in the configuration returned, the section of each step is the section of the user completed by the
defaults of the step. What Pandora chooses for the matching cost, and what the optical flow takes from it, is left out; the number of
iterations of a dichotomy is at most nine. -/
theorem C37_pipeline_sections (env : Config.Env) (bi : Bool) (pandora : PandoraMc M) (null : M) (rm : J → M) (user cfg p0 : Fields)
    (m : Mach (Machine.Attrs J M)) (hw : user.wf) (hp : user.get "pipeline" = some (.obj p0))
    (h : Config.checkConf env (stepsOf bi pandora null rm) user (fresh .init) = (m, .ok cfg)) :
    ∃ pl, cfg.get "pipeline" = some (.obj pl) ∧ pl.keys = p0.keys ∧ ∀ k v, p0.get k = some v → ∃ f g, v = .obj f ∧
      pl.get k = some (.obj g) ∧
      ((k = "estimation" ∧ Completed [] estimationDefaults f g) ∨
       (k = "matching_cost" ∧ Completed ["window_size", "subpix", "spline_order"] matchingCostDefaults f g) ∨
       (k = "disparity" ∧ Completed [] disparityDefaults f g) ∨
       (k = "refinement" ∧ RefinementCompleted f g)) := by
  obtain ⟨pl, input, pl', h1, -, h3, -, -, -, -, h8⟩ := checkConf_gets env _ user cfg _ m hw h
  obtain ⟨-, hk, -, -, hs⟩ := pipeline_new _ user p0 pl' m hw hp h3
  refine ⟨pl', h8, hk, fun k v hv => ?_⟩
  have hvw : v.wf := Fields.wf_get p0 (Fields.wf_get user hw hp) hv
  obtain ⟨c, v', hc, -, hu, hg⟩ := hs k v hv
  rcases hc with ⟨rfl, hc⟩ | ⟨rfl, a, b, mar, hc⟩ | ⟨rfl, mar, hc⟩ | ⟨rfl, a, b, mar, hc⟩
  · obtain ⟨f, g, rfl, rfl, h⟩ := estimation_completed hvw hc hu
    exact ⟨f, g, rfl, hg, Or.inl ⟨rfl, h⟩⟩
  · obtain ⟨f, g, rfl, rfl, h⟩ := matching_cost_completed hc hu
    exact ⟨f, g, rfl, hg, Or.inr (Or.inl ⟨rfl, h⟩)⟩
  · have hc' : disparityCheck bi v.convAll = .ok c := by
      simp only [stepsOf, Except.map] at hc
      split at hc
      · simp at hc
      · simp only [Except.ok.injEq, Prod.mk.injEq] at hc
        rename_i h
        rw [h, hc.1]
    obtain ⟨f, g, rfl, rfl, h⟩ := disparity_completed hvw hc' hu
    exact ⟨f, g, rfl, hg, Or.inr (Or.inr (Or.inl ⟨rfl, h⟩))⟩
  · have hc' : refinementCheck bi v.convAll a b = .ok c := by
      simp only [stepsOf, Except.map] at hc
      split at hc
      · simp at hc
      · simp only [Except.ok.injEq, Prod.mk.injEq] at hc
        rename_i h
        rw [h, hc.1]
    obtain ⟨f, g, rfl, rfl, h⟩ := refinement_completed hvw hc' hu
    exact ⟨f, g, rfl, hg, Or.inr (Or.inr (Or.inr ⟨rfl, h⟩))⟩

end Verif.Props
