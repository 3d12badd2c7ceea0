import Verif.Props.Accept
import Verif.Props.AcceptedExample
import Verif.Props.Rebuild
import Verif.Lemmas.JsonAgain

/-!
# Property C94: the configuration returned by `check_conf` is returned unchanged when it is checked again
-/

namespace Verif.Props

open Verif Verif.Config Verif.Machine Verif.Spec

set_option linter.unusedSectionVars false

/-! ## Steps -/

theorem leaf_wf {v : J} (h : v.isLeaf = true) : v.wf := by cases v <;> simp_all [J.isLeaf, J.wf]

theorem leaf_normal {v : J} (h : v.isLeaf = true) (hc : conv v = v) : v.normal := by
  cases v <;> simp_all [J.isLeaf, J.normal]

theorem Fills.wf {g c : Fields} (h : Fills g c) (hw : g.wf) : c.wf :=
  Fields.wf_of c h.nodup fun k v hk => by
    rcases h.vals k v hk with ⟨h1, -⟩ | h1
    · exact leaf_wf h1
    · exact Fields.wf_get g hw h1

theorem Fills.normal {g c : Fields} (h : Fills g c) (hn : g.normal) : c.normal :=
  Fields.normal_of c h.nodup fun k v hk => by
    rcases h.vals k v hk with ⟨h1, h2⟩ | h1
    · exact leaf_normal h1 h2
    · exact Fields.normal_get g hn h1

section
variable {bi : Bool} {pandora : PandoraMc Disparity.Margins} {null : Disparity.Margins} {rm : J → Disparity.Margins}

/-- The checked section of the steps other than the matching cost is the one of the user, completed. -/
theorem section_fills {M : Type} {pandora : PandoraMc M} {null : M} {rm : J → M} {k : String} (hk : k ≠ "matching_cost") {v c : J}
    (hw : v.wf) (hc : Checked (stepsOf bi pandora null rm) k v.convAll c) :
    ∃ g h, v.convAll = .obj g ∧ g.wf ∧ g.normal ∧ c = .obj h ∧ Fills g h := by
  cases hv : v.convAll with
  | obj fc =>
    rw [hv] at hc
    obtain ⟨f, rfl, rfl⟩ := convAll_eq_obj hv
    have hfw : f.convAll.wf := convAlls_wf f (by simpa [J.wf] using hw)
    have hfn := convAlls_normal f
    have hnd := Fields.wf_keys _ hfw
    suffices h : ∃ h, c = .obj h ∧ Fills f.convAll h by
      obtain ⟨h, h1, h2⟩ := h
      exact ⟨_, h, rfl, hfw, hfn, h1, h2⟩
    rcases hc with ⟨rfl, hc⟩ | ⟨rfl, -⟩ | ⟨rfl, mar, hc⟩ | ⟨rfl, a, b, mar, hc⟩
    · simp only [stepsOf, estimationCheck] at hc
      split at hc
      · simp at hc
      · split_ifs at hc with _ hs
        rw [Except.ok.injEq] at hc
        subst hc
        refine ⟨_, rfl, ?_⟩
        unfold fillEstimation
        exact (((Fills.refl hnd).setDefault _ _ rfl rfl).setDefault _ _ rfl rfl).setDefault _ _ rfl rfl
      · simp at hc
    · exact absurd rfl hk
    · simp only [stepsOf, disparityCheck, Except.map] at hc
      by_cases hs : disparitySchema bi (.obj (fillInvalid f.convAll)) = true
      · rw [if_pos hs] at hc
        simp only [Except.ok.injEq, Prod.mk.injEq] at hc
        obtain ⟨rfl, -⟩ := hc
        refine ⟨_, rfl, ?_⟩
        unfold fillInvalid
        split
        · exact (Fills.refl hnd).set _ _ rfl rfl
        · split_ifs
          · exact (Fills.refl hnd).set _ _ rfl rfl
          · exact Fills.refl hnd
        · exact Fills.refl hnd
      · rw [if_neg hs] at hc; simp at hc
    · have hc' : refinementCheck bi (.obj f.convAll) a b = .ok c := by
        simp only [stepsOf, Except.map] at hc
        split at hc
        · simp at hc
        · simp only [Except.ok.injEq, Prod.mk.injEq] at hc
          rename_i h
          rw [h, hc.1]
      simp only [refinementCheck] at hc'
      split at hc'
      · simp at hc'
      · split_ifs at hc' with e1 e2 e3
        · unfold dichotomyCheck at hc'
          split_ifs at hc' with hs
          split at hc'
          · split at hc'
            · simp at hc'
            · rw [Except.ok.injEq] at hc'
              subst hc'
              refine ⟨_, rfl, ?_⟩
              unfold capIterations
              split
              · split_ifs
                · exact (Fills.refl hnd).set _ _ rfl rfl
                · exact Fills.refl hnd
              · exact Fills.refl hnd
          · simp at hc'
        · unfold opticalFlowCheck at hc'
          split_ifs at hc' with hs
          rw [Except.ok.injEq] at hc'
          subst hc'
          unfold opticalFlowSchema at hs
          rw [dictOf_iff] at hs
          have g1 : (fillOpticalFlow f.convAll a b).get "window_size" = some (b.getD .null) := by
            unfold fillOpticalFlow
            rw [get_setDefault_ne (by decide), Fields.get_set, if_neg (by decide), Fields.get_set, if_pos rfl]
          have g2 : (fillOpticalFlow f.convAll a b).get "step" = some (a.getD (.arr (.cons (.int 1) (.cons (.int 1) .nil)))) := by
            unfold fillOpticalFlow
            rw [get_setDefault_ne (by decide), Fields.get_set, if_pos rfl]
          have l1 : (b.getD .null).isLeaf = true ∧ conv (b.getD .null) = b.getD .null := by
            obtain ⟨x, hx, hx'⟩ := hs.2 _ (List.mem_cons_of_mem _ (List.mem_cons_of_mem _ List.mem_cons_self))
            simp only at hx hx'
            rw [g1, Option.some.injEq] at hx
            subst hx
            rw [intAnd_iff] at hx'
            obtain ⟨n, hn, -⟩ := hx'
            exact isInt_leaf (isInt_true hn)
          have l2 : (a.getD (.arr (.cons (.int 1) (.cons (.int 1) .nil)))).isLeaf = true ∧
              conv (a.getD (.arr (.cons (.int 1) (.cons (.int 1) .nil)))) = a.getD (.arr (.cons (.int 1) (.cons (.int 1) .nil))) := by
            obtain ⟨x, hx, hx'⟩ := hs.2 _ (List.mem_cons_of_mem _ (List.mem_cons_of_mem _ (List.mem_cons_of_mem _ List.mem_cons_self)))
            simp only at hx hx'
            rw [g2, Option.some.injEq] at hx
            subst hx
            obtain ⟨sr, sc, he, -⟩ := (stepSchema_iff _).1 hx'
            rw [he]
            exact ⟨rfl, rfl⟩
          refine ⟨_, rfl, ?_⟩
          unfold fillOpticalFlow
          exact (((Fills.refl hnd).set _ _ l1.1 l1.2).set _ _ l2.1 l2.2).setDefault _ _ rfl rfl
        · unfold interpolationCheck at hc'
          split_ifs at hc'
          rw [Except.ok.injEq] at hc'
          subst hc'
          exact ⟨_, rfl, Fills.refl hnd⟩
      · simp at hc'
  | _ =>
    rw [hv] at hc
    rcases hc with ⟨rfl, hc⟩ | ⟨rfl, st, wn, mar, hc⟩ | ⟨rfl, mar, hc⟩ | ⟨rfl, a, b, mar, hc⟩
    · simp [stepsOf, estimationCheck] at hc
    · simp [stepsOf, matchingCostCheck] at hc
    · simp [stepsOf, disparityCheck, Except.map] at hc
    · simp [stepsOf, refinementCheck, Except.map] at hc

/-- The merged section of a step other than the matching cost is its checked section. -/
theorem section_same {M : Type} {pandora : PandoraMc M} {null : M} {rm : J → M} {k : String} (hk : k ≠ "matching_cost") {v c v' : J}
    (hw : v.wf) (hc : Checked (stepsOf bi pandora null rm) k v.convAll c) (hu : updateVal (some v.convAll) c = .ok v') :
    v' = c ∧ v'.wf ∧ v'.normal := by
  obtain ⟨g, h, e, hgw, hgn, rfl, hf⟩ := section_fills hk hw hc
  rw [e] at hu
  simp only [updateVal, hf.merge hgw hgn, Except.map, Except.ok.injEq] at hu
  subst hu
  exact ⟨rfl, by simpa [J.wf] using hf.wf hgw, by simpa [J.normal] using hf.normal hgn⟩

/-- The merged section of the matching cost: its check gives the same section, steps, window and margins, and merging changes nothing. -/
theorem mc_checked_again (hp : PandoraKeeps pandora) {v c v' st wn : J} {mar : Disparity.Margins} (hw : v.wf)
    (hc : matchingCostCheck pandora v.convAll = .ok (c, st, wn, mar)) (hu : updateVal (some v.convAll) c = .ok v') :
    v'.wf ∧ v'.normal ∧ matchingCostCheck pandora v' = .ok (c, st, wn, mar) ∧ updateVal (some v') c = .ok v' := by
  obtain ⟨fc, hfc⟩ : ∃ fc, v.convAll = .obj fc := by
    cases hv : v.convAll with
    | obj fc => exact ⟨fc, rfl⟩
    | _ => rw [hv] at hc; simp [matchingCostCheck] at hc
  obtain ⟨f, rfl, rfl⟩ := convAll_eq_obj hfc
  have hfw : f.convAll.wf := convAlls_wf f (by simpa [J.wf] using hw)
  have hfn := convAlls_normal f
  rw [hfc] at hc hu
  simp only [matchingCostCheck] at hc
  cases hm : f.convAll.get "matching_cost_method" with
  | none => rw [hm] at hc; simp at hc
  | some method =>
    rw [hm] at hc
    simp only at hc
    split_ifs at hc with hsch
    split at hc
    · rename_i a b hst
      rw [hst] at hc hsch
      split at hc
      · simp at hc
      · rename_i wn' sub spl mar' hpan
        simp only [Except.ok.injEq, Prod.mk.injEq] at hc
        obtain ⟨rfl, rfl, rfl, rfl⟩ := hc
        obtain ⟨⟨n1, i1⟩, ⟨k, i2⟩, ⟨n3, i3⟩⟩ := hp.numbers _ _ _ _ _ hpan
        obtain ⟨g', rfl, hg'⟩ := updateVal_obj hu
        have hcn : (Fields.cons "matching_cost_method" method (.cons "step" (.arr (.cons a (.cons b .nil)))
                (.cons "window_size" wn' (.cons "subpix" sub (.cons "spline_order" spl .nil))))).keys.Nodup := by simp [Fields.keys]
        have hmeth : method.isLeaf = true ∧ conv method = method := by
          rw [Bool.and_eq_true] at hsch
          have h1 := hsch.1
          have h2 := Fields.normal_get _ hfn hm
          cases method with
          | str s => exact ⟨rfl, by simpa [J.normal] using h2⟩
          | _ => simp [strIn] at h1
        have leaves : ∀ k v, (Fields.cons "matching_cost_method" method (.cons "step" (.arr (.cons a (.cons b .nil)))
                (.cons "window_size" wn' (.cons "subpix" sub (.cons "spline_order" spl .nil))))).get k = some v →
            v.isLeaf = true ∧ conv v = v := by
          intro k v hk
          simp only [Fields.get] at hk
          split_ifs at hk <;> rw [Option.some.injEq] at hk <;> subst hk
          exacts [hmeth, ⟨rfl, rfl⟩, isInt_leaf i1, isInt_leaf i2, isInt_leaf i3]
        have lf : ∀ k v, (Fields.cons "matching_cost_method" method (.cons "step" (.arr (.cons a (.cons b .nil)))
                (.cons "window_size" wn' (.cons "subpix" sub (.cons "spline_order" spl .nil))))).get k = some v → g'.get k = some v := by
          intro k v hk
          rw [merged_leaf hcn hg' hk (leaves k v hk).1, (leaves k v hk).2]
        have hcw : (Fields.cons "matching_cost_method" method (.cons "step" (.arr (.cons a (.cons b .nil)))
                (.cons "window_size" wn' (.cons "subpix" sub (.cons "spline_order" spl .nil))))).wf :=
          Fields.wf_of _ hcn fun k v hk => leaf_wf (leaves k v hk).1
        have hgw : g'.wf := updateConf_wf _ _ _ hcw hfw hg'
        have hgn : g'.normal := updateConf_normal _ _ _ hcw hfw hfn hg'
        have g1 := lf "matching_cost_method" method (by simp [Fields.get])
        have g2 := lf "step" (.arr (.cons a (.cons b .nil))) (by simp [Fields.get])
        have hag : pandora (g'.set "step" b) = .ok (wn', sub, spl, mar') := by
          refine hp.again _ _ _ _ _ _ hpan ?_ ?_ ?_ ?_
          · rw [Fields.get_set, if_neg (by decide)]; exact lf _ _ (by simp [Fields.get])
          · rw [Fields.get_set, if_neg (by decide)]; exact lf _ _ (by simp [Fields.get])
          · rw [Fields.get_set, if_neg (by decide)]; exact lf _ _ (by simp [Fields.get])
          · intro k h1 h2 h3
            rw [Fields.get_set, Fields.get_set]
            split_ifs with e
            · rfl
            · by_cases hk : k = "matching_cost_method"
              · subst hk; rw [g1, hm]
              · have hnone : (Fields.cons "matching_cost_method" method (.cons "step" (.arr (.cons a (.cons b .nil)))
                    (.cons "window_size" wn' (.cons "subpix" sub (.cons "spline_order" spl .nil))))).get k = none := by
                  rw [Fields.get_eq_none]
                  simp [Fields.keys, hk, h1, h2, h3, Ne.symm e]
                exact (updateConf_get _ _ _ hcn hg' k).1 hnone
        refine ⟨by simpa [J.wf] using hgw, by simpa [J.normal] using hgn, ?_, ?_⟩
        · simp only [matchingCostCheck, g1, g2, Option.getD_some]
          rw [if_pos hsch, hag]
        · have : updateConf g' (.cons "matching_cost_method" method (.cons "step" (.arr (.cons a (.cons b .nil)))
                (.cons "window_size" wn' (.cons "subpix" sub (.cons "spline_order" spl .nil))))) = .ok g' := by
            obtain ⟨r, hr⟩ := updateConf_ok _ g' hcn fun k v hk => ⟨_, updateVal_leaf (g'.get k) (leaves k v hk).1⟩
            rw [hr]
            congr 1
            apply Fields.ext_keys
            · rw [updateConf_keys _ _ _ hr]
              apply newKeys_of_subset
              intro k hk
              obtain ⟨x, hx⟩ := Option.isSome_iff_exists.1 ((Fields.get_isSome _ k).2 hk)
              exact Fields.mem_of_get (lf k x hx)
            · rw [updateConf_keys _ _ _ hr]; exact newKeys_nodup _ _ (Fields.wf_keys _ hgw)
            · intro k
              obtain ⟨q1, q2⟩ := updateConf_get _ _ _ hcn hr k
              cases hk : (Fields.cons "matching_cost_method" method (.cons "step" (.arr (.cons a (.cons b .nil)))
                (.cons "window_size" wn' (.cons "subpix" sub (.cons "spline_order" spl .nil))))).get k with
              | none => exact q1 hk
              | some x =>
                obtain ⟨y, s1, s2⟩ := q2 x hk
                rw [updateVal_leaf _ (leaves k x hk).1, (leaves k x hk).2, Except.ok.injEq] at s1
                rw [s2, ← s1, lf k x hk]
          simp only [updateVal, this, Except.map]
    · simp at hc

end

/-! ## Pipeline -/

variable {K : Type} [Field K] [LinearOrder K] [IsStrictOrderedRing K] [FloorRing K]

theorem keeps_leaves {pandora : PandoraMc Disparity.Margins} (hp : PandoraKeeps pandora) : GivesLeaves pandora := by
  intro f w sx sp m h
  obtain ⟨⟨_, h1⟩, ⟨_, h2⟩, ⟨_, h3⟩⟩ := hp.numbers _ _ _ _ _ h
  exact ⟨(isInt_leaf h1).1, (isInt_leaf h2).1, (isInt_leaf h3).1⟩

theorem checked_estimation {w : Main.World K} {v c : J} : Checked w.steps "estimation" v c ↔ estimationCheck w.env.boolIsInt v = .ok c := by
  simp [Checked, Main.World.steps, stepsOf]

theorem checked_matching_cost {w : Main.World K} {v c : J} : Checked w.steps "matching_cost" v c ↔
    ∃ st wn mar, matchingCostCheck w.pandora v = .ok (c, st, wn, mar) := by
  simp [Checked, Main.World.steps, stepsOf]

theorem checked_disparity {w : Main.World K} {v c : J} : Checked w.steps "disparity" v c ↔ disparityCheck w.env.boolIsInt v = .ok c := by
  simp only [Checked, Main.World.steps, stepsOf, String.reduceEq, false_and, true_and, false_or, or_false]
  cases disparityCheck w.env.boolIsInt v <;> simp [Except.map]

/-- The same callbacks run on two pipelines whose sections give the same checks. -/
theorem run_same {w : Main.World K} {p q : Fields} (hp : p.keys.Nodup) (hk : q.keys = p.keys) (hwf : WellFormed p.keys)
    (he : ∀ v v', p.get "estimation" = some v → q.get "estimation" = some v' → ∃ c, estimationCheck w.env.boolIsInt v.convAll = .ok c ∧
      estimationCheck w.env.boolIsInt v'.convAll = .ok c)
    (hd : ∀ v v', p.get "disparity" = some v → q.get "disparity" = some v' → ∃ c, disparityCheck w.env.boolIsInt v.convAll = .ok c ∧
      disparityCheck w.env.boolIsInt v'.convAll = .ok c)
    (hm : ∀ v v', p.get "matching_cost" = some v → q.get "matching_cost" = some v' → ∃ c st wn mar,
      matchingCostCheck w.pandora v.convAll = .ok (c, st, wn, mar) ∧ matchingCostCheck w.pandora v'.convAll = .ok (c, st, wn, mar) ∧
      ∀ r r', p.get "refinement" = some r → q.get "refinement" = some r' → ∃ c,
        refinementCheck w.env.boolIsInt r.convAll (some st) (some wn) = .ok c ∧
        refinementCheck w.env.boolIsInt r'.convAll (some st) (some wn) = .ok c) :
    runCallbacks (checkExec w.steps) (toPipeline q.convAll) (checkPlan p.keys) .init =
      runCallbacks (checkExec w.steps) (toPipeline p.convAll) (checkPlan p.keys) .init := by
  have hq : q.keys.Nodup := by rw [hk]; exact hp
  have two : ∀ k ∈ p.keys, ∃ v v', p.get k = some v ∧ q.get k = some v' := by
    intro k hk'
    obtain ⟨v, hv⟩ := Option.isSome_iff_exists.1 ((Fields.get_isSome _ k).2 hk')
    obtain ⟨v', hv'⟩ := Option.isSome_iff_exists.1 ((Fields.get_isSome q k).2 (hk ▸ hk'))
    exact ⟨v, v', hv, hv'⟩
  have rest : ∀ l : List String, (∀ k ∈ l, k ∈ p.keys) → (l = [] ∨ l = ["matching_cost"] ∨ l = ["matching_cost", "disparity"] ∨
      l = ["matching_cost", "disparity", "refinement"]) → ∀ d, runCallbacks (checkExec w.steps) (toPipeline q.convAll) (checkPlan l) d =
      runCallbacks (checkExec w.steps) (toPipeline p.convAll) (checkPlan l) d := by
    intro l hl h d
    rcases h with rfl | rfl | rfl | rfl
    · rfl
    · obtain ⟨v, v', a1, a2⟩ := two "matching_cost" (hl _ (by simp))
      obtain ⟨c, st, wn, mar, b1, b2, -⟩ := hm v v' a1 a2
      have e : checkPlan ["matching_cost"] = [(.matchingCostCheck, "matching_cost")] := rfl
      rw [e]
      simp only [runCallbacks, checkExec, lookup_get hp a1, lookup_get hq a2, bind, Except.bind, Main.World.steps, stepsOf, b1, b2]
    · obtain ⟨v, v', a1, a2⟩ := two "matching_cost" (hl _ (by simp))
      obtain ⟨u, u', a3, a4⟩ := two "disparity" (hl _ (by simp))
      obtain ⟨c, st, wn, mar, b1, b2, -⟩ := hm v v' a1 a2
      obtain ⟨c', b3, b4⟩ := hd u u' a3 a4
      have e : checkPlan ["matching_cost", "disparity"] = [(.matchingCostCheck, "matching_cost"), (.disparityCheck, "disparity")] := rfl
      rw [e]
      simp only [runCallbacks, checkExec, lookup_get hp a1, lookup_get hq a2, lookup_get hp a3, lookup_get hq a4, bind, Except.bind,
        Main.World.steps, stepsOf, b1, b2, b3, b4, Except.map]
    · obtain ⟨v, v', a1, a2⟩ := two "matching_cost" (hl _ (by simp))
      obtain ⟨u, u', a3, a4⟩ := two "disparity" (hl _ (by simp))
      obtain ⟨r, r', a5, a6⟩ := two "refinement" (hl _ (by simp))
      obtain ⟨c, st, wn, mar, b1, b2, b⟩ := hm v v' a1 a2
      obtain ⟨c', b3, b4⟩ := hd u u' a3 a4
      obtain ⟨c'', b5, b6⟩ := b r r' a5 a6
      have e : checkPlan ["matching_cost", "disparity", "refinement"] =
        [(.matchingCostCheck, "matching_cost"), (.disparityCheck, "disparity"), (.refinementCheck, "refinement")] := rfl
      rw [e]
      simp only [runCallbacks, checkExec, lookup_get hp a1, lookup_get hq a2, lookup_get hp a3, lookup_get hq a4, lookup_get hp a5,
        lookup_get hq a6, bind, Except.bind, Main.World.steps, stepsOf, b1, b2, b3, b4, b5, b6, Except.map]
  obtain ⟨e, h⟩ := wellFormed_cases hwf hp
  obtain ⟨l, hkeys, hl⟩ : ∃ l, p.keys = (if e then ["estimation"] else []) ++ l ∧ (l = [] ∨ l = ["matching_cost"] ∨
      l = ["matching_cost", "disparity"] ∨ l = ["matching_cost", "disparity", "refinement"]) := by
    rcases h with h | h | h | h
    · exact ⟨[], by rw [h, List.append_nil], Or.inl rfl⟩
    · exact ⟨_, h, Or.inr (Or.inl rfl)⟩
    · exact ⟨_, h, Or.inr (Or.inr (Or.inl rfl))⟩
    · exact ⟨_, h, Or.inr (Or.inr (Or.inr rfl))⟩
  have hr := rest l (fun k hk => by rw [hkeys]; exact List.mem_append_right _ hk) hl
  cases e with
  | false =>
    rw [hkeys]
    exact hr _
  | true =>
    obtain ⟨v, v', a1, a2⟩ := two "estimation" (by rw [hkeys]; simp)
    obtain ⟨c, b1, b2⟩ := he v v' a1 a2
    have e : checkPlan p.keys = (.estimationCheck, "estimation") :: checkPlan l := by rw [hkeys]; rfl
    rw [e, runCallbacks, runCallbacks]
    have hx : ∀ d, checkExec w.steps .estimationCheck (toPipeline q.convAll) "estimation" d =
        checkExec w.steps .estimationCheck (toPipeline p.convAll) "estimation" d := by
      intro d
      simp only [checkExec, lookup_get hp a1, lookup_get hq a2, bind, Except.bind, Main.World.steps, stepsOf, b1, b2]
    rw [hx]
    split
    · rfl
    · exact hr _

/-- The checked pipeline, checked again, is unchanged, and the machine is left in the same state. -/
theorem pipeline_again {w : Main.World K} (hp : PandoraKeeps w.pandora) {user p0 pl' user2 : Fields} {m : Mach (Machine.Attrs J Disparity.Margins)}
    (hw : user.wf) (hu : user.get "pipeline" = some (.obj p0))
    (h : checkPipelineJ w.steps user (fresh .init) = (m, .ok (.cons "pipeline" (.obj pl') .nil)))
    (hw2 : user2.wf) (hu2 : user2.get "pipeline" = some (.obj pl')) :
    checkPipelineJ w.steps user2 (fresh .init) = (m, .ok (.cons "pipeline" (.obj pl') .nil)) := by
  obtain ⟨hwf, hkeys, -, hm1, hsec⟩ := pipeline_new w.steps user p0 pl' m hw hu h
  have hpw : p0.wf := Fields.wf_get user hw hu
  have hplw : pl'.wf := Fields.wf_get user2 hw2 hu2
  -- the sections of the checked pipeline come from those of the user
  have back : ∀ k v', pl'.get k = some v' → ∃ v c, p0.get k = some v ∧ v.wf ∧ Checked w.steps k v.convAll c ∧
      updateVal (some v.convAll) c = .ok v' ∧ m.data.pipelineCfg.find? (fun p => decide (p.1 = k)) = some (k, c) := by
    intro k v' hk
    have : k ∈ p0.keys := by rw [← hkeys]; exact Fields.mem_of_get hk
    obtain ⟨v, hv⟩ := Option.isSome_iff_exists.1 ((Fields.get_isSome _ k).2 this)
    obtain ⟨c, v'', h1, h2, h3, h4⟩ := hsec k v hv
    rw [hk, Option.some.injEq] at h4
    exact ⟨v, c, hv, Fields.wf_get p0 hpw hv, h1, h4 ▸ h3, h2⟩
  have est : ∀ v', pl'.get "estimation" = some v' → v'.convAll = v' ∧ v'.wf ∧ estimationCheck w.env.boolIsInt v' = .ok v' ∧ v'.normal := by
    intro v' hk
    obtain ⟨v, c, -, hvw, hc, hv', -⟩ := back _ _ hk
    obtain ⟨rfl, e2, e3⟩ := section_same (by decide) hvw hc hv'
    exact ⟨convAll_of_normal _ e3, e2, C38_estimation _ _ _ (checked_estimation.1 hc), e3⟩
  have disp : ∀ v', pl'.get "disparity" = some v' → v'.convAll = v' ∧ v'.wf ∧ disparityCheck w.env.boolIsInt v' = .ok v' ∧ v'.normal := by
    intro v' hk
    obtain ⟨v, c, -, hvw, hc, hv', -⟩ := back _ _ hk
    obtain ⟨rfl, e2, e3⟩ := section_same (by decide) hvw hc hv'
    exact ⟨convAll_of_normal _ e3, e2, C38_disparity _ _ _ (checked_disparity.1 hc), e3⟩
  have mc : ∀ v', pl'.get "matching_cost" = some v' → v'.convAll = v' ∧ ∃ v c st wn mar, p0.get "matching_cost" = some v ∧
      matchingCostCheck w.pandora v.convAll = .ok (c, st, wn, mar) ∧
      matchingCostCheck w.pandora v' = .ok (c, st, wn, mar) ∧ updateVal (some v') c = .ok v' := by
    intro v' hk
    obtain ⟨v, c, hv, hvw, hc, hv', -⟩ := back _ _ hk
    obtain ⟨st, wn, mar, hc⟩ := checked_matching_cost.1 hc
    obtain ⟨e1, e2, e3, e4⟩ := mc_checked_again hp hvw hc hv'
    exact ⟨convAll_of_normal _ e2, v, c, st, wn, mar, hv, hc, e3, e4⟩
  have ref : ∀ v', pl'.get "refinement" = some v' → v'.convAll = v' ∧ v'.wf ∧ v'.normal ∧ ∃ vm c st wn mar,
      p0.get "matching_cost" = some vm ∧ matchingCostCheck w.pandora vm.convAll = .ok (c, st, wn, mar) ∧
      refinementCheck w.env.boolIsInt v' (some st) (some wn) = .ok v' := by
    intro v' hk
    obtain ⟨v, c, hv, hvw, hc, hv', hf⟩ := back _ _ hk
    obtain ⟨rfl, e2, e3⟩ := section_same (by decide) hvw hc hv'
    obtain ⟨vm, cm, st, wn, mar, c', q1, q2, -, -, q5, q6⟩ := checked_with hw hu h hv
    rw [hf, Option.some.injEq, Prod.mk.injEq] at q6
    obtain ⟨-, rfl⟩ := q6
    exact ⟨convAll_of_normal _ e3, e2, e3, vm, cm, st, wn, mar, q1, q2, C38_refinement _ _ _ _ _ (convAll_wf v hvw) q5⟩
  -- it is accepted
  have hs : SectionsOk w.env.boolIsInt w.pandora pl' := by
    refine ⟨fun v' hk => ?_, fun v' hk => ?_, fun v' hk => ?_⟩
    · obtain ⟨e1, -, e3, -⟩ := est v' hk
      rw [e1]
      exact (estimation_iff _ _).1 ⟨_, e3⟩
    · obtain ⟨e1, v, c, st, wn, mar, hv, hc, hc', -⟩ := mc v' hk
      rw [e1]
      obtain ⟨a, b, sx, sp, hst, hg⟩ := (matching_cost_iff w.pandora _ st wn mar).1 ⟨c, hc'⟩
      refine ⟨a, b, wn, sx, sp, mar, hg, fun r hr => ?_⟩
      obtain ⟨e1, -, -, vm, c', st', wn', mar', p1, p2, p3⟩ := ref r hr
      rw [hv, Option.some.injEq] at p1
      subst p1
      rw [hc] at p2
      simp only [Except.ok.injEq, Prod.mk.injEq] at p2
      obtain ⟨rfl, rfl, rfl, rfl⟩ := p2
      rw [e1]
      subst hst
      obtain ⟨f, -, -, -, ha, hb, -⟩ := hg
      exact (refinement_iff _ _ a b wn ha hb).1 ⟨_, p3⟩
    · obtain ⟨e1, -, e3, -⟩ := disp v' hk
      rw [e1]
      exact (disparity_iff _ _).1 ⟨_, e3⟩
  obtain ⟨m2, c2, h2⟩ := (C86_pipeline (null := ⟨0, 0, 0, 0⟩) (rm := Main.refMargins) (keeps_leaves hp) user2 pl' hw2 hu2).2 ⟨hkeys ▸ hwf, hs⟩
  obtain ⟨-, -, pl2, -, -, -, -, rfl⟩ := checkPipelineJ_form _ user2 _ _ m2 h2
  have h2' : checkPipelineJ w.steps user2 (fresh .init) = (m2, .ok (.cons "pipeline" (.obj pl2) .nil)) := h2
  obtain ⟨-, hkeys2, -, hm2, hsec2⟩ := pipeline_new w.steps user2 pl' pl2 m2 hw2 hu2 h2'
  have hmm : m2 = m := by
    rw [hm2, hm1, hkeys]
    congr 2
    refine run_same (Fields.wf_keys _ hpw) hkeys hwf (fun v v' a b => ?_) (fun v v' a b => ?_) (fun v v' a b => ?_)
    · obtain ⟨v0, c, h0, hvw, hc, hv', -⟩ := back _ _ b
      rw [a, Option.some.injEq] at h0
      subst h0
      obtain ⟨rfl, -, e3⟩ := section_same (by decide) hvw hc hv'
      rw [convAll_of_normal _ e3]
      exact ⟨v', checked_estimation.1 hc, (est v' b).2.2.1⟩
    · obtain ⟨v0, c, h0, hvw, hc, hv', -⟩ := back _ _ b
      rw [a, Option.some.injEq] at h0
      subst h0
      obtain ⟨rfl, -, e3⟩ := section_same (by decide) hvw hc hv'
      rw [convAll_of_normal _ e3]
      exact ⟨v', checked_disparity.1 hc, (disp v' b).2.2.1⟩
    · obtain ⟨e1, v0, c, st, wn, mar, h0, hc, hc', -⟩ := mc v' b
      rw [a, Option.some.injEq] at h0
      subst h0
      refine ⟨c, st, wn, mar, hc, by rw [e1]; exact hc', fun r r' a' b' => ?_⟩
      obtain ⟨f1, -, -, vm, cm, st', wn', mar', p1, p2, p3⟩ := ref r' b'
      obtain ⟨v1, c1, h1, hvw, hc1, hv', hf⟩ := back _ _ b'
      rw [a', Option.some.injEq] at h1
      subst h1
      obtain ⟨rfl, -, e3⟩ := section_same (by decide) hvw hc1 hv'
      obtain ⟨vm2, cm2, st2, wn2, mar2, c2, q1, q2, -, -, q5, q6⟩ := checked_with hw hu h a'
      rw [hf, Option.some.injEq, Prod.mk.injEq] at q6
      obtain ⟨-, rfl⟩ := q6
      rw [a, Option.some.injEq] at q1 p1
      subst q1
      subst p1
      rw [hc] at q2 p2
      simp only [Except.ok.injEq, Prod.mk.injEq] at q2 p2
      obtain ⟨-, rfl, rfl, -⟩ := q2
      obtain ⟨-, rfl, rfl, -⟩ := p2
      rw [f1]
      exact ⟨_, q5, p3⟩
  suffices e : pl2 = pl' by rw [h2', e, hmm]
  apply Fields.ext_keys _ _ hkeys2 (by rw [hkeys2]; exact Fields.wf_keys _ hplw)
  intro k
  cases hk : pl'.get k with
  | none =>
    rw [Fields.get_eq_none] at hk ⊢
    rwa [hkeys2]
  | some v' =>
    obtain ⟨c, v'', hc, hf, hm, hg⟩ := hsec2 k v' hk
    rw [hg]
    congr 1
    rcases hc with ⟨rfl, hc⟩ | ⟨rfl, st, wn, mar, hc⟩ | ⟨rfl, mar, hc⟩ | ⟨rfl, a, b, mar, hc⟩
    · obtain ⟨e1, e2, e3, e4⟩ := est v' hk
      have hc : estimationCheck w.env.boolIsInt v'.convAll = .ok c := hc
      rw [e1] at hc hm
      rw [e3, Except.ok.injEq] at hc
      subst hc
      rw [updateVal_self _ e2 e4, Except.ok.injEq] at hm
      exact hm.symm
    · obtain ⟨e1, v, c', st', wn', mar', -, -, e3, e4⟩ := mc v' hk
      have hc : matchingCostCheck w.pandora v'.convAll = .ok (c, st, wn, mar) := hc
      rw [e1] at hc hm
      rw [e3] at hc
      simp only [Except.ok.injEq, Prod.mk.injEq] at hc
      obtain ⟨rfl, -⟩ := hc
      rw [e4, Except.ok.injEq] at hm
      exact hm.symm
    · obtain ⟨e1, e2, e3, e4⟩ := disp v' hk
      have hc := (checked_disparity (w := w) (v := v'.convAll) (c := c)).1 (Or.inr (Or.inr (Or.inl ⟨rfl, mar, hc⟩)))
      rw [e1] at hc hm
      rw [e3, Except.ok.injEq] at hc
      subst hc
      rw [updateVal_self _ e2 e4, Except.ok.injEq] at hm
      exact hm.symm
    · obtain ⟨e1, e2, e4, vm, cm, st, wn, mar', p1, p2, p3⟩ := ref v' hk
      obtain ⟨vm2, cm2, st2, wn2, mar2, c2, q1, q2, -, -, q5, q6⟩ := checked_with hw2 hu2 h2' hk
      obtain ⟨e1', vm', cm', st', wn', mar'', r1, r2, r3, -⟩ := mc vm2 q1
      rw [p1, Option.some.injEq] at r1
      subst r1
      rw [p2] at r2
      simp only [Except.ok.injEq, Prod.mk.injEq] at r2
      obtain ⟨rfl, rfl, rfl, rfl⟩ := r2
      rw [e1', r3] at q2
      simp only [Except.ok.injEq, Prod.mk.injEq] at q2
      obtain ⟨rfl, rfl, rfl, rfl⟩ := q2
      rw [hf, Option.some.injEq, Prod.mk.injEq] at q6
      obtain ⟨-, rfl⟩ := q6
      rw [e1] at q5 hm
      rw [p3, Except.ok.injEq] at q5
      subst q5
      rw [updateVal_self _ e2 e4, Except.ok.injEq] at hm
      exact hm.symm

/-! ## Input section -/

theorem two_conv (v : J) (f : Fields) (h : v.isLeaf = true) : conv (conv v) ≠ .obj f := by
  intro e
  have hl := conv_leaf (conv_leaf h)
  rw [e] at hl
  simp [J.isLeaf] at hl

/-- C38, input section with an estimation: the initial disparities by default are completed once. -/
theorem C38_input_section_estimation (env : Config.Env) (v : J) (cfg : Fields) (hw : v.wf)
    (h : checkInputSection env (.cons "input" v .nil) true = .ok cfg) : checkInputSection env cfg true = .ok cfg := by
  obtain ⟨inp, hi, -, -⟩ := input_ok env _ cfg _ h
  obtain ⟨c, h1, h2, h3, -⟩ := checkInputSection_ok h
  simp only [if_true] at h2
  have huw : (Fields.cons "input" v .nil).wf := by simp [Fields.wf, Fields.keys, hw]
  have hcw := updateConf_wf _ _ _ huw defaultInput_wf h1
  have one : ∀ (d u : J), updateConf (.cons "input" d .nil) (.cons "input" u .nil) =
      (updateVal (some d) u).map fun r => .cons "input" r .nil := by
    intro d u
    simp only [updateConf, Fields.get, if_true]
    cases updateVal (some d) u with
    | error e => simp [Except.map]
    | ok x => simp [Fields.set, Except.map]
  have key : ∃ c2, updateConf defaultInput cfg = .ok c2 ∧ updateConf defaultDisp c2 = .ok cfg := by
    simp only [defaultInput, defaultDisp] at h1 h2 ⊢
    rw [one] at h1
    cases v with
    | obj u =>
      have huw : u.wf := by simpa [J.wf] using hw
      simp only [updateVal] at h1
      cases hc : updateConf (.cons "left" (.obj (.cons "nodata" (.int (-9999)) (.cons "mask" .null .nil)))
          (.cons "right" (.obj (.cons "nodata" (.int (-9999)) (.cons "mask" .null .nil))) .nil)) u with
      | error e => rw [hc] at h1; simp [Except.map] at h1
      | ok x =>
        rw [hc] at h1
        simp only [Except.map, Except.ok.injEq] at h1
        subst h1
        rw [one] at h2
        simp only [updateVal] at h2
        cases hr : updateConf (.cons "col_disparity" (.obj (.cons "init" (.int (-9997)) (.cons "range" (.int 2) .nil)))
            (.cons "row_disparity" (.obj (.cons "init" (.int (-9997)) (.cons "range" (.int 2) .nil))) .nil)) x with
        | error e => rw [hr] at h2; simp [Except.map] at h2
        | ok r =>
          rw [hr] at h2
          simp only [Except.map, Except.ok.injEq] at h2
          subst h2
          obtain ⟨c2, k1, k2⟩ := two_defaults _ _ u x r huw (by simp [Fields.wf, J.wf, Fields.keys]) (by simp [Fields.normal, J.normal, conv])
            (by simp [Fields.wf, J.wf, Fields.keys]) (by simp [Fields.normal, J.normal, conv]) (by simp [Fields.keys]) hc hr
          refine ⟨.cons "input" (.obj c2) .nil, ?_, ?_⟩
          · rw [one]; simp only [updateVal, k1, Except.map]
          · rw [one]; simp only [updateVal, k2, Except.map]
    | _ =>
      exfalso
      rw [updateVal_leaf _ rfl] at h1
      simp only [Except.map, Except.ok.injEq] at h1
      subst h1
      rw [one, updateVal_leaf _ (conv_leaf rfl)] at h2
      simp only [Except.map, Except.ok.injEq] at h2
      subst h2
      simp only [Fields.get, if_true, Option.some.injEq] at hi
      exact two_conv _ _ rfl hi
  obtain ⟨c2, k1, k2⟩ := key
  unfold checkInputSection
  rw [hi]
  simp only [if_true, k1, k2, h3]

theorem keys_one {f : Fields} {k : String} {v : J} (hn : f.keys.Nodup) (h : ∀ k' ∈ f.keys, k' = k) (hg : f.get k = some v) :
    f = .cons k v .nil := by
  apply Fields.ext_keys _ _ _ hn
  · intro k'
    by_cases e : k' = k
    · subst e; simp [Fields.get, hg]
    · have : f.get k' = none := (Fields.get_eq_none _ _).2 fun h' => e (h k' h')
      rw [this]
      simp [Fields.get, Ne.symm e]
  · have hm := Fields.mem_of_get hg
    cases hk : f.keys with
    | nil => rw [hk] at hm; simp at hm
    | cons a l =>
      rw [hk] at hn h
      cases l with
      | nil => rw [h a (by simp)]; rfl
      | cons b l =>
        exfalso
        have h1 := h a (by simp)
        have h2 := h b (by simp)
        rw [h1, h2] at hn
        simp at hn

/-! ## Whole configuration -/

/-- The checked pipeline is a dictionary. -/
theorem pipeline_wf {w : Main.World K} (hp : PandoraKeeps w.pandora) {user p0 pl' : Fields} {m : Mach (Machine.Attrs J Disparity.Margins)}
    (hw : user.wf) (hu : user.get "pipeline" = some (.obj p0))
    (h : checkPipelineJ w.steps user (fresh .init) = (m, .ok (.cons "pipeline" (.obj pl') .nil))) : pl'.wf := by
  obtain ⟨-, hkeys, -, -, hsec⟩ := pipeline_new w.steps user p0 pl' m hw hu h
  have hpw : p0.wf := Fields.wf_get user hw hu
  refine Fields.wf_of pl' (by rw [hkeys]; exact Fields.wf_keys _ hpw) fun k v' hk => ?_
  have : k ∈ p0.keys := by rw [← hkeys]; exact Fields.mem_of_get hk
  obtain ⟨v, hv⟩ := Option.isSome_iff_exists.1 ((Fields.get_isSome _ k).2 this)
  obtain ⟨c, v'', h1, -, h3, h4⟩ := hsec k v hv
  rw [hk, Option.some.injEq] at h4
  subst h4
  have hvw := Fields.wf_get p0 hpw hv
  by_cases e : k = "matching_cost"
  · subst e
    obtain ⟨st, wn, mar, hc⟩ := checked_matching_cost.1 h1
    exact (mc_checked_again hp hvw hc h3).1
  · exact (section_same e hvw h1 h3).2.1

/-- An accepted pipeline with an estimation key gives an estimation. -/
theorem gives_iff {w : Main.World K} {user p0 pl' : Fields} {m : Mach (Machine.Attrs J Disparity.Margins)}
    (hw : user.wf) (hu : user.get "pipeline" = some (.obj p0))
    (h : checkPipelineJ w.steps user (fresh .init) = (m, .ok (.cons "pipeline" (.obj pl') .nil))) :
    givesEstimation p0 = decide ("estimation" ∈ p0.keys) := by
  obtain ⟨-, -, -, -, hsec⟩ := pipeline_new w.steps user p0 pl' m hw hu h
  unfold givesEstimation
  cases hv : p0.get "estimation" with
  | none => simpa using (Fields.get_eq_none _ _).1 hv
  | some v =>
    obtain ⟨c, -, h1, -⟩ := hsec _ v hv
    have h1 := checked_estimation.1 h1
    simp only [Fields.mem_of_get hv, decide_true, decide_eq_true_eq]
    rintro rfl
    simp [J.convAll, conv, estimationCheck] at h1

/-- The checked configuration is a dictionary. -/
theorem checked_wf {w : Main.World K} (hp : PandoraKeeps w.pandora) {user cfg : Fields} {m : Mach (Machine.Attrs J Disparity.Margins)}
    (hw : user.wf) (h : Config.checkConf w.env w.steps user (fresh .init) = (m, .ok cfg)) : cfg.wf := by
  obtain ⟨pl, input, roi, pl', expert, h1, h2, h3, h4, h5, h6, hcfg⟩ := checkConf_sections w.env w.steps user cfg _ m h
  obtain ⟨rfl, hroi⟩ := roi_unchanged _ user roi hw h3
  have hplw := pipeline_wf hp hw h1 h4
  -- the input section
  obtain ⟨iv, hiv⟩ : ∃ iv, getConfigInput user = .cons "input" iv .nil ∧ iv.wf := by
    unfold getConfigInput at h2 ⊢
    cases hu : user.get "input" with
    | none => rw [hu] at h2; simp [checkInputSection, Fields.get] at h2
    | some v => exact ⟨v, rfl, Fields.wf_get user hw hu⟩
  obtain ⟨hiv, hivw⟩ := hiv
  have hguw : (getConfigInput user).wf := getConfigInput_wf hw
  obtain ⟨inp, hinp, -⟩ := input_ok w.env _ input _ h2
  have hinw : input.wf := by
    obtain ⟨c, q1, q2, -⟩ := checkInputSection_ok h2
    have hcw := updateConf_wf _ _ _ hguw defaultInput_wf q1
    split_ifs at q2
    · exact updateConf_wf _ _ _ hcw (by simp [defaultDisp, Fields.wf, J.wf, Fields.keys]) q2
    · exact q2 ▸ hcw
  have hin1 : input = .cons "input" (.obj inp) .nil := keys_one (Fields.wf_keys _ hinw) (input_keys w.env _ input _ h2) hinp
  have hagain : checkInputSection w.env input (givesEstimation pl) = .ok input := by
    cases hb : givesEstimation pl with
    | false => rw [hb] at h2; exact C38_input_section w.env _ input hguw h2
    | true => rw [hb, hiv] at h2; exact C38_input_section_estimation w.env iv input hivw h2
  -- the expert mode
  have hexp : expert = .nil ∨ ∃ e, expert = .cons "expert_mode" (.obj e) .nil ∧ user.get "expert_mode" = some (.obj e) := by
    unfold checkExpert at h6
    split at h6
    · exact Or.inl (Except.ok.inj h6).symm
    · exact Or.inl (Except.ok.inj h6).symm
    · rename_i e _ he
      split at h6
      · simp at h6
      · split_ifs at h6
        exact Or.inr ⟨e, (Except.ok.inj h6).symm, he⟩
    · simp at h6
  have hroi' : getRoiConfig user = .nil ∨ ∃ v, getRoiConfig user = .cons "ROI" v .nil ∧ v.wf := by
    unfold getRoiConfig
    cases hu : user.get "ROI" with
    | none => exact Or.inl rfl
    | some v => exact Or.inr ⟨v, rfl, Fields.wf_get user hw hu⟩
  have hinpw : inp.wf := Fields.wf_get input hinw hinp
  rw [hcfg, hin1]
  have hew : ∀ e, expert = .cons "expert_mode" (.obj e) .nil → user.get "expert_mode" = some (.obj e) → e.wf :=
    fun e _ hu => Fields.wf_get user hw hu
  rcases hroi' with hr | ⟨v, hr, hvw⟩ <;> rcases hexp with he | ⟨e, he, hu⟩ <;> rw [hr, he] <;>
    simp [Fields.append, Fields.wf, J.wf, Fields.keys, hplw, hinpw] <;> simp_all

/-- The configurations with the sections of the checked one are accepted, with the same result and the same machine. -/
theorem checked_like {w : Main.World K} (hp : PandoraKeeps w.pandora) {user cfg cfg2 : Fields} {m : Mach (Machine.Attrs J Disparity.Margins)}
    (hw : user.wf) (h : Config.checkConf w.env w.steps user (fresh .init) = (m, .ok cfg)) (hcw2 : cfg2.wf)
    (hlike : ∀ k ∈ ["input", "ROI", "pipeline", "expert_mode"], cfg2.get k = cfg.get k) :
    Config.checkConf w.env w.steps cfg2 (fresh .init) = (m, .ok cfg) := by
  obtain ⟨pl, input, roi, pl', expert, h1, h2, h3, h4, h5, h6, hcfg⟩ := checkConf_sections w.env w.steps user cfg _ m h
  obtain ⟨rfl, hroi⟩ := roi_unchanged _ user roi hw h3
  have hplw := pipeline_wf hp hw h1 h4
  -- the input section
  obtain ⟨iv, hiv⟩ : ∃ iv, getConfigInput user = .cons "input" iv .nil ∧ iv.wf := by
    unfold getConfigInput at h2 ⊢
    cases hu : user.get "input" with
    | none => rw [hu] at h2; simp [checkInputSection, Fields.get] at h2
    | some v => exact ⟨v, rfl, Fields.wf_get user hw hu⟩
  obtain ⟨hiv, hivw⟩ := hiv
  have hguw : (getConfigInput user).wf := getConfigInput_wf hw
  obtain ⟨inp, hinp, -⟩ := input_ok w.env _ input _ h2
  have hinw : input.wf := by
    obtain ⟨c, q1, q2, -⟩ := checkInputSection_ok h2
    have hcw := updateConf_wf _ _ _ hguw defaultInput_wf q1
    split_ifs at q2
    · exact updateConf_wf _ _ _ hcw (by simp [defaultDisp, Fields.wf, J.wf, Fields.keys]) q2
    · exact q2 ▸ hcw
  have hin1 : input = .cons "input" (.obj inp) .nil := keys_one (Fields.wf_keys _ hinw) (input_keys w.env _ input _ h2) hinp
  have hagain : checkInputSection w.env input (givesEstimation pl) = .ok input := by
    cases hb : givesEstimation pl with
    | false => rw [hb] at h2; exact C38_input_section w.env _ input hguw h2
    | true => rw [hb, hiv] at h2; exact C38_input_section_estimation w.env iv input hivw h2
  -- the expert mode
  have hexp : expert = .nil ∨ ∃ e, expert = .cons "expert_mode" (.obj e) .nil ∧ user.get "expert_mode" = some (.obj e) := by
    unfold checkExpert at h6
    split at h6
    · exact Or.inl (Except.ok.inj h6).symm
    · exact Or.inl (Except.ok.inj h6).symm
    · rename_i e _ he
      split at h6
      · simp at h6
      · split_ifs at h6
        exact Or.inr ⟨e, (Except.ok.inj h6).symm, he⟩
    · simp at h6
  have hroi' : getRoiConfig user = .nil ∨ ∃ v, getRoiConfig user = .cons "ROI" v .nil ∧ v.wf := by
    unfold getRoiConfig
    cases hu : user.get "ROI" with
    | none => exact Or.inl rfl
    | some v => exact Or.inr ⟨v, rfl, Fields.wf_get user hw hu⟩
  have hinpw : inp.wf := Fields.wf_get input hinw hinp
  have gp : cfg2.get "pipeline" = some (.obj pl') := by
    rw [hlike "pipeline" (by simp), hcfg, hin1]
    rcases hroi' with hr | ⟨v, hr, -⟩ <;> rw [hr] <;> simp [Fields.append, Fields.get]
  have gi : getConfigInput cfg2 = input := by
    unfold getConfigInput
    have : cfg2.get "input" = some (.obj inp) := by rw [hlike "input" (by simp), hcfg, hin1]; simp [Fields.append, Fields.get]
    rw [this, hin1]
  have gr : getRoiConfig cfg2 = getRoiConfig user := by
    have : cfg2.get "ROI" = (getRoiConfig user).get "ROI" := by
      rw [hlike "ROI" (by simp), hcfg, hin1]
      rcases hroi' with hr | ⟨v, hr, -⟩ <;> rw [hr] <;> rcases hexp with he | ⟨e, he, -⟩ <;> rw [he] <;> simp [Fields.append, Fields.get]
    have hu : (getRoiConfig user).get "ROI" = user.get "ROI" := by
      unfold getRoiConfig
      cases user.get "ROI" <;> simp [Fields.get]
    unfold getRoiConfig
    rw [this, hu]
  have ge : checkExpert cfg2 = .ok expert := by
    have : cfg2.get "expert_mode" = expert.get "expert_mode" := by
      rw [hlike "expert_mode" (by simp), hcfg, hin1]
      rcases hroi' with hr | ⟨v, hr, -⟩ <;> rw [hr] <;> simp [Fields.append, Fields.get]
    rcases hexp with he | ⟨e, he, hu⟩
    · rw [he] at this ⊢
      unfold checkExpert
      rw [this]
      simp [Fields.get]
    · rw [he] at this
      simp only [Fields.get, if_true] at this
      have hx : checkExpert cfg2 = checkExpert user := by
        unfold checkExpert
        rw [this, hu]
      rw [hx, h6]
  have hm2 := pipeline_again hp hw h1 h4 hcw2 gp
  have hge : givesEstimation pl' = givesEstimation pl := by
    rw [gives_iff hw h1 h4, gives_iff hcw2 gp hm2, (pipeline_new w.steps user pl pl' m hw h1 h4).2.1]
  rw [← hge] at hagain
  have hres : cfg = input.append ((getRoiConfig user).append ((Fields.cons "pipeline" (.obj pl') .nil).append expert)) := hcfg
  unfold Config.checkConf
  rw [gp, gi, gr]
  simp only [givesEstimation] at hagain
  cases hpe : pl'.get "estimation" with
  | none =>
    rw [hpe] at hagain
    simp only at hagain
    simp only [hpe, hagain, h3, hm2, Fields.get, if_true, ge]
    cases hmc : pl'.get "matching_cost" with
    | none => simp only [← hres]
    | some v => simp only [h5 v hmc, ← hres]
  | some x =>
    rw [hpe] at hagain
    simp only at hagain
    simp only [hpe, hagain, h3, hm2, Fields.get, if_true, ge]
    cases hmc : pl'.get "matching_cost" with
    | none => simp only [← hres]
    | some v => simp only [h5 v hmc, ← hres]

/-- C94: the configuration returned by `check_conf` is accepted by a new check, which returns it unchanged and leaves the machine in the
same state. -/
theorem C94_checked_again {w : Main.World K} (hp : PandoraKeeps w.pandora) {user cfg : Fields} {m : Mach (Machine.Attrs J Disparity.Margins)}
    (hw : user.wf) (h : Config.checkConf w.env w.steps user (fresh .init) = (m, .ok cfg)) :
    Config.checkConf w.env w.steps cfg (fresh .init) = (m, .ok cfg) :=
  checked_like hp hw h (checked_wf hp hw h) fun _ _ => rfl

/-- C94, executions: an execution on the configuration returned by `check_conf` writes the same files, or raises the same exception, as the
execution on the configuration of the user. -/
theorem C94_same_execution {w : Main.World K} (hp : PandoraKeeps w.pandora) {user cfg : Fields}
    {m : Mach (Machine.Attrs J Disparity.Margins)} (hw : user.wf)
    (h : Config.checkConf w.env w.steps user (fresh .init) = (m, .ok cfg)) : Main.main w cfg = Main.main w user := by
  unfold Main.main
  rw [C94_checked_again hp hw h, h]

/-- A configuration with an estimation, a ROI, steps and an optical flow, without disparities: its checked configuration is another one, and
is returned unchanged. -/
example : ∃ m cfg, Config.checkConf (exWorldOf 1).env (exWorldOf 1).steps (exUserWith (some exEst) 1 2 (some exFlow) none) (fresh .init) =
    (m, .ok cfg) ∧ cfg ≠ exUserWith (some exEst) 1 2 (some exFlow) none ∧
    Config.checkConf (exWorldOf 1).env (exWorldOf 1).steps cfg (fresh .init) = (m, .ok cfg) := by
  have hw : (exUserWith (some exEst) 1 2 (some exFlow) none).wf := by
    simp [exUserWith, exInput, exPipeline, exEst, exFlow, dict, Fields.append, Fields.wf, J.wf, Fields.keys]
  obtain ⟨m, cfg, h⟩ := accepted_ok (w := exWorldOf 1) (user := exUserWith (some exEst) 1 2 (some exFlow) none) (by decide +kernel)
  refine ⟨m, cfg, h, ?_, C94_checked_again (exWorldOf_contract 1 5 (by decide)).keeps hw h⟩
  have hne : (match (Config.checkConf (exWorldOf 1).env (exWorldOf 1).steps (exUserWith (some exEst) 1 2 (some exFlow) none) (fresh .init)).2 with
    | .ok c => decide (c ≠ exUserWith (some exEst) 1 2 (some exFlow) none) | .error _ => false) = true := by decide +kernel
  rw [h] at hne
  simpa using hne

end Verif.Props
