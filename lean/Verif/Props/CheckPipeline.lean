import Verif.Props.CheckConf

/-!
# The check of the pipeline section on a new machine
-/

namespace Verif.Props

open Verif Verif.Config Verif.Machine Verif.Spec

set_option linter.unusedSectionVars false

theorem toPipeline_keys : (f : Fields) → (toPipeline f).map Prod.fst = f.keys
  | .nil => rfl
  | .cons k v r => by simp [toPipeline, Fields.keys, toPipeline_keys r]

theorem toPipeline_mem : (f : Fields) → f.keys.Nodup → ∀ k v, (k, v) ∈ toPipeline f ↔ f.get k = some v
  | .nil, _, k, v => by simp [toPipeline, Fields.get]
  | .cons k₀ v₀ r, hn, k, v => by
    simp only [Fields.keys, List.nodup_cons] at hn
    simp only [toPipeline, List.mem_cons, Prod.mk.injEq, Fields.get, toPipeline_mem r hn.2 k v]
    by_cases e : k₀ = k
    · subst e
      have : r.get k₀ = none := (Fields.get_eq_none _ _).2 hn.1
      simp [this, eq_comm]
    · simp [e, Ne.symm e]

theorem ofPipeline_keys : (l : Pipeline J) → (ofPipeline l).keys = l.map Prod.fst
  | [] => rfl
  | (k, v) :: l => by simp [ofPipeline, Fields.keys, ofPipeline_keys l]

theorem ofPipeline_get : (l : Pipeline J) → (l.map Prod.fst).Nodup → ∀ k v, (ofPipeline l).get k = some v ↔ (k, v) ∈ l
  | [], _, k, v => by simp [ofPipeline, Fields.get]
  | (k₀, v₀) :: l, hn, k, v => by
    simp only [List.map_cons, List.nodup_cons] at hn
    simp only [ofPipeline, List.mem_cons, Prod.mk.injEq, Fields.get]
    by_cases e : k₀ = k
    · subst e
      have : (k₀, v) ∉ l := fun h => hn.1 (List.mem_map.2 ⟨_, h, rfl⟩)
      simp [this, eq_comm]
    · rw [if_neg e, ofPipeline_get l hn.2 k v]
      simp [Ne.symm e]

section
variable {M : Type}

/-- The pipeline section of a new machine: the steps of the user, each one merged with its checked configuration. -/
theorem pipeline_new (st : Steps J M) (user p0 pl' : Fields) (m : Mach (Attrs J M)) (hw : user.wf)
    (hp : user.get "pipeline" = some (.obj p0))
    (h : checkPipelineJ st user (fresh .init) = (m, .ok (.cons "pipeline" (.obj pl') .nil))) :
    WellFormed p0.keys ∧ pl'.keys = p0.keys ∧
    (runCallbacks (checkExec st) (toPipeline p0.convAll) (checkPlan p0.keys) .init).2 = none ∧
    m = fresh (runCallbacks (checkExec st) (toPipeline p0.convAll) (checkPlan p0.keys) .init).1 ∧
    ∀ k v, p0.get k = some v → ∃ c v', Checked st k v.convAll c ∧ m.data.pipelineCfg.find? (fun p => decide (p.1 = k)) = some (k, c) ∧
      updateVal (some v.convAll) c = .ok v' ∧ pl'.get k = some v' := by
  obtain ⟨u, pl, pl'', h1, h2, h3, h4, h5⟩ := checkPipelineJ_form st user _ _ m h
  simp only [Fields.cons.injEq, J.obj.injEq, true_and, and_true] at h5
  subst h5
  rw [updateConf_nil user hw, Except.ok.injEq] at h1
  subst h1
  rw [Fields.get_convAll, hp] at h2
  simp only [Option.map_some, J.convAll, Option.some.injEq, J.obj.injEq] at h2
  subst h2
  have hpw : p0.wf := Fields.wf_get user hw hp
  have hn : p0.keys.Nodup := Fields.wf_keys p0 hpw
  have hnc : p0.convAll.keys.Nodup := by rw [Fields.keys_convAll]; exact hn
  obtain ⟨hiff, hm⟩ := check_from_begin (checkExec st) (toPipeline p0.convAll) (.init : Attrs J M)
  rw [h3] at hiff hm
  have hm := hm rfl
  simp only at hm
  rw [toPipeline_keys, Fields.keys_convAll] at hiff hm
  obtain ⟨hwf, hr⟩ := hiff.1 rfl
  obtain ⟨i1, -, -, i4, -⟩ := check_list st (toPipeline p0.convAll) p0.keys (path_names ((wellFormed_iff _).1 hwf)) .init hr
  have hd : m.data = (runCallbacks (checkExec st) (toPipeline p0.convAll) (checkPlan p0.keys) .init).1 := by rw [hm]; rfl
  rw [← hd] at i1 i4
  have e1 : m.data.pipelineCfg.map Prod.fst = p0.keys := by
    rw [i1, addKeys_disjoint _ _ hn (by simp [Attrs.init])]; simp [Attrs.init]
  have hkeys : pl'.keys = p0.keys := by
    rw [updateConf_keys _ _ _ h4, ofPipeline_keys, e1, Fields.keys_convAll, newKeys_of_subset _ _ (fun _ h => h)]
  refine ⟨hwf, hkeys, hr, hm, ?_⟩
  intro k v hv
  have hk : k ∈ m.data.pipelineCfg.map Prod.fst := by rw [e1]; exact Fields.mem_of_get hv
  obtain ⟨⟨k', c⟩, hc, e⟩ := List.mem_map.1 hk
  simp only at e
  subst e
  obtain ⟨p, hp1, hp2⟩ := i4 _ hc (Fields.mem_of_get hv)
  rw [toPipeline_mem _ hnc, Fields.get_convAll, hv] at hp1
  simp only [Option.map_some, Option.some.injEq] at hp1
  subst hp1
  have hnp : (m.data.pipelineCfg.map Prod.fst).Nodup := by rw [e1]; exact hn
  obtain ⟨-, j2⟩ := updateConf_get _ _ _ (by rw [ofPipeline_keys]; exact hnp) h4 k'
  obtain ⟨v', q1, q2⟩ := j2 c ((ofPipeline_get _ hnp _ _).2 hc)
  rw [Fields.get_convAll, hv] at q1
  refine ⟨c, v', hp2, ?_, q1, q2⟩
  have hl := lookup_mem' m.data.pipelineCfg hnp hc
  exact hl
where
  lookup_mem' : ∀ (l : Pipeline J), (l.map Prod.fst).Nodup → ∀ {k c}, (k, c) ∈ l → l.find? (fun p => decide (p.1 = k)) = some (k, c)
    | [], _, _, _, h => by simp at h
    | (a, b) :: l, hn, k, c, h => by
      simp only [List.map_cons, List.nodup_cons] at hn
      rcases List.mem_cons.1 h with e | e
      · simp only [Prod.mk.injEq] at e
        obtain ⟨rfl, rfl⟩ := e
        simp
      · have : a ≠ k := fun e' => hn.1 (e' ▸ List.mem_map.2 ⟨_, e, rfl⟩)
        simp only [List.find?, this, decide_false]
        exact lookup_mem' l hn.2 e

/-- The possible keys of an accepted pipeline. -/
theorem wellFormed_cases {l : List String} (h : WellFormed l) (hn : l.Nodup) :
    ∃ e : Bool, l = (if e then ["estimation"] else []) ∨ l = (if e then ["estimation"] else []) ++ ["matching_cost"] ∨
      l = (if e then ["estimation"] else []) ++ ["matching_cost", "disparity"] ∨
      l = (if e then ["estimation"] else []) ++ ["matching_cost", "disparity", "refinement"] := by
  obtain ⟨e, n, t, ht⟩ := h
  have tail : ∀ l t : List String, l ++ t = List.replicate n "refinement" → l.Nodup → l = [] ∨ l = ["refinement"] := by
    intro l t h hl
    rcases l with _ | ⟨a, _ | ⟨b, l⟩⟩
    · exact Or.inl rfl
    · right
      have : a ∈ List.replicate n "refinement" := by rw [← h]; simp
      rw [List.eq_of_mem_replicate this]
    · exfalso
      have ha : a ∈ List.replicate n "refinement" := by rw [← h]; simp
      have hb : b ∈ List.replicate n "refinement" := by rw [← h]; simp
      rw [List.eq_of_mem_replicate ha, List.eq_of_mem_replicate hb] at hl
      simp at hl
  have two : ∀ l t : List String, l ++ t = ["matching_cost", "disparity"] ++ List.replicate n "refinement" → l.Nodup →
      l = [] ∨ l = ["matching_cost"] ∨ l = ["matching_cost", "disparity"] ∨ l = ["matching_cost", "disparity", "refinement"] := by
    intro l t h hl
    rcases l with _ | ⟨a, _ | ⟨b, l⟩⟩
    · exact Or.inl rfl
    · simp only [List.cons_append, List.nil_append, List.cons.injEq] at h
      exact Or.inr (Or.inl (by rw [h.1]))
    · simp only [List.cons_append, List.nil_append, List.cons.injEq] at h
      obtain ⟨rfl, rfl, h⟩ := h
      simp only [List.nodup_cons] at hl
      rcases tail l t h hl.2.2 with rfl | rfl
      · exact Or.inr (Or.inr (Or.inl rfl))
      · exact Or.inr (Or.inr (Or.inr rfl))
  cases e with
  | false =>
    refine ⟨false, ?_⟩
    simp only [Bool.false_eq_true, if_false, List.nil_append] at ht ⊢
    exact two l t ht hn
  | true =>
    simp only [if_true] at ht
    rcases l with _ | ⟨a, l⟩
    · exact ⟨false, Or.inl rfl⟩
    · refine ⟨true, ?_⟩
      simp only [List.cons_append, List.nil_append, List.cons.injEq] at ht
      obtain ⟨rfl, ht⟩ := ht
      rcases two l t ht (List.nodup_cons.1 hn).2 with rfl | rfl | rfl | rfl <;> simp

end

end Verif.Props
