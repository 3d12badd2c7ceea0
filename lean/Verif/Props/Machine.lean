import Verif.Lemmas.Machine

/-!
# Properties C28 to C33: state machine
-/

namespace Verif.Props

open Verif Verif.Machine Verif.Spec

variable {D P : Type}

theorem removed_check (m : Mach D) (h : m.transitions = transitionsCheck) : (removeTransitions transitionsCheck m).transitions = [] := by
  unfold removeTransitions
  rw [h]
  show List.filter _ _ = []
  decide

theorem removed_run (m : Mach D) (h : m.transitions = transitionsRun) : (removeTransitions transitionsRun m).transitions = [] := by
  unfold removeTransitions
  rw [h]
  show List.filter _ _ = []
  decide

/-- The check from the initial state, in one equation per case. -/
theorem check_from_begin (exec : Exec D P) (cfg : Pipeline P) (d : D) :
    ((checkConf exec cfg (fresh d)).2 = none ↔
      WellFormed (cfg.map Prod.fst) ∧ (runCallbacks exec cfg (checkPlan (cfg.map Prod.fst)) d).2 = none) ∧
    ((checkConf exec cfg (fresh d)).2 = none →
      (checkConf exec cfg (fresh d)).1 = fresh (runCallbacks exec cfg (checkPlan (cfg.map Prod.fst)) d).1) := by
  rw [wellFormed_iff]
  have hT : Table ({ fresh d with transitions := (fresh d).transitions ++ transitionsCheck } : Mach D).transitions checkCallbacks :=
    table_check
  cases hp : path .begin (cfg.map Prod.fst) with
  | none =>
    have := loop_no_path exec cfg id checkCallbacks (cfg.map Prod.fst) _ hT (by rw [List.map_id]; exact hp)
    simp only [id] at this
    unfold checkConf
    rcases hl : loop (fun s => trigger exec cfg s s) (cfg.map Prod.fst) _ with ⟨m', _ | e⟩
    · rw [hl] at this; simp at this
    · simp
  | some s' =>
    obtain ⟨h1, h2, h3, h4⟩ := loop_path exec cfg id checkCallbacks (cfg.map Prod.fst) _ s' hT (by rw [List.map_id]; exact hp)
    simp only [id] at h1 h2 h3 h4
    unfold checkConf
    rcases hl : loop (fun s => trigger exec cfg s s) (cfg.map Prod.fst) _ with ⟨m', _ | e⟩
    · rw [hl] at h1 h2 h3 h4
      simp only at h1 h2 h3
      simp only [Option.isSome_some, true_and, true_iff, forall_const]
      refine ⟨h1.symm, ?_⟩
      have hrem := removed_check m' h3
      unfold fresh
      simp only [Mach.mk.injEq, true_and]
      refine ⟨hrem, ?_⟩
      exact h2
    · rw [hl] at h1
      simp only at h1
      simp only [Option.isSome_some, true_and, reduceCtorEq, false_iff, false_implies, and_true]
      intro h
      have h1' : (runCallbacks exec cfg (checkPlan (cfg.map Prod.fst)) d).2 = some e := h1.symm
      rw [h1'] at h
      simp at h

theorem baseName_eq : baseName = stepOf := by
  funext s
  unfold baseName stepOf
  congr 1
  induction s.toList with
  | nil => rfl
  | cons c l ih =>
    rw [List.takeWhile_cons, beforeDot, ih]
    by_cases h : c = '.' <;> simp [h]

/-- The run from the initial state. -/
theorem run_from_begin (exec : Exec D P) (prep : D → D) (cfg : Pipeline P) (d : D) :
    ((runAll exec prep cfg (fresh d)).2 = none ↔
      WellFormed ((cfg.map Prod.fst).map stepOf) ∧
        (runCallbacks exec cfg (runPlan (cfg.map Prod.fst)) (prep d)).2 = none) ∧
    ((runAll exec prep cfg (fresh d)).2 = none →
      (runAll exec prep cfg (fresh d)).1 = fresh (runCallbacks exec cfg (runPlan (cfg.map Prod.fst)) (prep d)).1) ∧
    (WellFormed ((cfg.map Prod.fst).map stepOf) →
      (runAll exec prep cfg (fresh d)).2 = (runCallbacks exec cfg (runPlan (cfg.map Prod.fst)) (prep d)).2 ∧
      (runAll exec prep cfg (fresh d)).1.data = (runCallbacks exec cfg (runPlan (cfg.map Prod.fst)) (prep d)).1) := by
  rw [wellFormed_iff]
  have hT : Table ({ fresh d with data := prep (fresh d).data, transitions := (fresh d).transitions ++ transitionsRun } :
      Mach D).transitions runCallbacksOf := table_run
  cases hp : path .begin ((cfg.map Prod.fst).map stepOf) with
  | none =>
    have := loop_no_path exec cfg stepOf runCallbacksOf (cfg.map Prod.fst) _ hT hp
    unfold runAll runStep
    rw [baseName_eq]
    rcases hl : loop (fun s => trigger exec cfg (stepOf s) s) (cfg.map Prod.fst) _ with ⟨m', _ | e⟩
    · rw [hl] at this; simp at this
    · simp
  | some s' =>
    obtain ⟨h1, h2, h3, h4⟩ := loop_path exec cfg stepOf runCallbacksOf (cfg.map Prod.fst) _ s' hT hp
    have h1' : (loop (fun s => trigger exec cfg (stepOf s) s) (cfg.map Prod.fst) { fresh d with data := prep (fresh d).data, transitions := (fresh d).transitions ++ transitionsRun }).2
      = (runCallbacks exec cfg (runPlan (cfg.map Prod.fst)) (prep d)).2 := h1
    have h2' : (loop (fun s => trigger exec cfg (stepOf s) s) (cfg.map Prod.fst) { fresh d with data := prep (fresh d).data, transitions := (fresh d).transitions ++ transitionsRun }).1.data
      = (runCallbacks exec cfg (runPlan (cfg.map Prod.fst)) (prep d)).1 := h2
    unfold runAll runStep
    rw [baseName_eq]
    rcases hl : loop (fun s => trigger exec cfg (stepOf s) s) (cfg.map Prod.fst) _ with ⟨m', _ | e⟩
    · rw [hl] at h1' h2' h3
      simp only at h1' h2' h3
      simp only [Option.isSome_some, true_and, true_iff, forall_const]
      have hrem := removed_run m' h3
      refine ⟨h1'.symm, ?_, h1', h2'⟩
      unfold fresh
      simp only [Mach.mk.injEq, true_and]
      exact ⟨hrem, h2'⟩
    · rw [hl] at h1' h2'
      simp only at h1' h2'
      simp only [Option.isSome_some, true_and, reduceCtorEq, false_iff, false_implies, forall_const]
      refine ⟨?_, h1', h2'⟩
      rw [← h1']
      simp

/-! ## C28 -/

/-- C28 (check): on a new machine the check succeeds if and only if the sequence of steps is well-formed and the check of each
step succeeds. Any sequence of any names, any behaviour of the steps. -/
theorem C28_check_iff (exec : Exec D P) (cfg : Pipeline P) (d : D) :
    (checkConf exec cfg (fresh d)).2 = none ↔
      WellFormed (cfg.map Prod.fst) ∧ (runCallbacks exec cfg (checkPlan (cfg.map Prod.fst)) d).2 = none :=
  (check_from_begin exec cfg d).1

/-- C28 (run): on a new machine the run succeeds if and only if the sequence of steps (suffixes after a dot removed) is
well-formed and the processing of each step succeeds. -/
theorem C28_run_iff (exec : Exec D P) (prep : D → D) (cfg : Pipeline P) (d : D) :
    (runAll exec prep cfg (fresh d)).2 = none ↔
      WellFormed ((cfg.map Prod.fst).map stepOf) ∧
        (runCallbacks exec cfg (runPlan (cfg.map Prod.fst)) (prep d)).2 = none :=
  (run_from_begin exec prep cfg d).1

/-- Tests: well-formed and not. -/
example : WellFormed ["estimation", "matching_cost"] := ⟨true, 0, by decide⟩
example : WellFormed ["matching_cost", "disparity", "refinement", "refinement"] := ⟨false, 2, by decide⟩
example : ¬ WellFormed ["matching_cost", "refinement"] := by rw [wellFormed_iff]; decide
example : ¬ WellFormed ["estimation", "estimation"] := by rw [wellFormed_iff]; decide
example : ¬ WellFormed ["disparity"] := by rw [wellFormed_iff]; decide

/-! ## C29 -/

theorem stepOf_of_mem {s : String} (h : s ∈ stepNames) : stepOf s = s := by
  simp only [stepNames, List.mem_cons, List.not_mem_nil, or_false] at h
  rcases h with rfl | rfl | rfl | rfl <;> decide

theorem path_names {s : St} {l : List String} (h : (path s l).isSome = true) : ∀ x ∈ l, x ∈ stepNames := by
  induction l generalizing s with
  | nil => simp
  | cons y l ih =>
    simp only [path] at h
    cases hn : next s y with
    | none => rw [hn] at h; simp at h
    | some s' =>
      rw [hn] at h
      intro x hx
      rcases List.mem_cons.1 hx with rfl | hx
      · exact next_names hn
      · exact ih h x hx

theorem wellFormed_stepOf {l : List String} (h : WellFormed l) : l.map stepOf = l := by
  rw [wellFormed_iff] at h
  have := path_names h
  clear h
  induction l with
  | nil => rfl
  | cons x l ih =>
    rw [List.map_cons, stepOf_of_mem (this x (by simp)), ih (fun y hy => this y (by simp [hy]))]

/-- C29: after a successful check on a new machine, the run of the same pipeline on this machine executes exactly the
processing of each step, once and in the order of the pipeline (`matching_cost` being prepared then run), and it fails only if
one of them raises: the transitions never refuse. -/
theorem C29_checked_pipeline_runs (exec : Exec D P) (prep : D → D) (cfg : Pipeline P) (d : D)
    (h : (checkConf exec cfg (fresh d)).2 = none) :
    let m := (checkConf exec cfg (fresh d)).1
    let res := runCallbacks exec cfg (runPlan (cfg.map Prod.fst)) (prep m.data)
    (runAll exec prep cfg m).2 = res.2 ∧ (runAll exec prep cfg m).1.data = res.1 ∧
    (runPlan (cfg.map Prod.fst)) = (cfg.map Prod.fst).flatMap fun s => (runCallbacksOf s).map fun cb => (cb, s) := by
  have hw := ((check_from_begin exec cfg d).1.1 h).1
  have hm := (check_from_begin exec cfg d).2 h
  have hb := wellFormed_stepOf hw
  simp only
  rw [hm]
  obtain ⟨-, -, h3⟩ := run_from_begin exec prep cfg (runCallbacks exec cfg (checkPlan (cfg.map Prod.fst)) d).1
  rw [hb] at h3
  obtain ⟨a, b⟩ := h3 hw
  refine ⟨a, b, ?_⟩
  unfold runPlan
  have : ∀ x ∈ cfg.map Prod.fst, stepOf x = x := by
    intro x hx
    exact stepOf_of_mem (path_names ((wellFormed_iff _).1 hw) x hx)
  generalize cfg.map Prod.fst = l at this
  clear hw hm hb h a b h3
  induction l with
  | nil => rfl
  | cons x l ih =>
    rw [List.flatMap_cons, List.flatMap_cons, this x (by simp), ih (fun y hy => this y (by simp [hy]))]

/-! ## C30 -/

/-- C30, full statement: a pipeline with suffixes is accepted by the check when the pipeline without suffixes is and the
checks of the steps succeed. -/
def C30Statement : Prop :=
  ∀ (cfg : Pipeline Unit), WellFormed ((cfg.map Prod.fst).map stepOf) →
    (checkConf (fun _ _ _ d => (d, none)) cfg (fresh ())).2 = none

/-- C30 is false of the check: every pipeline which contains a name with a suffix is rejected, whatever the steps do. -/
theorem C30_check_rejects_suffix (exec : Exec D P) (cfg : Pipeline P) (d : D) {s : String} (hs : s ∈ cfg.map Prod.fst)
    (hdot : '.' ∈ s.toList) : (checkConf exec cfg (fresh d)).2 ≠ none := by
  intro h
  have hw := ((check_from_begin exec cfg d).1.1 h).1
  have := path_names ((wellFormed_iff _).1 hw) s hs
  simp only [stepNames, List.mem_cons, List.not_mem_nil, or_false] at this
  rcases this with rfl | rfl | rfl | rfl <;> revert hdot <;> decide

theorem C30_false_at_check : ¬ C30Statement := by
  intro h
  have hw : WellFormed (([("matching_cost", ()), ("disparity", ()), ("refinement", ()), ("refinement.2", ())].map
      Prod.fst).map stepOf) := ⟨false, 2, by decide⟩
  exact C30_check_rejects_suffix _ _ _ (s := "refinement.2") (by simp) (by decide) (h _ hw)

theorem beforeDot_dot (l t : List Char) (h : ∀ c ∈ l, c ≠ '.') : beforeDot (l ++ '.' :: t) = l := by
  induction l with
  | nil => rfl
  | cons c l ih =>
    rw [List.cons_append, beforeDot, if_neg (h c (by simp)), ih (fun c' h' => h c' (by simp [h']))]

/-- C30 (partial, at run time): a name with a suffix runs the processing of the step before the dot, called with the full
name (so that it reads its own section of the configuration). Missing: the check, where the statement is false. -/
theorem C30_run_partial (exec : Exec D P) (prep : D → D) (cfg : Pipeline P) (d : D)
    (hw : WellFormed ((cfg.map Prod.fst).map stepOf)) :
    (runAll exec prep cfg (fresh d)).2 = (runCallbacks exec cfg (runPlan (cfg.map Prod.fst)) (prep d)).2 ∧
    (runAll exec prep cfg (fresh d)).1.data = (runCallbacks exec cfg (runPlan (cfg.map Prod.fst)) (prep d)).1 ∧
    ∀ (a b : String), (∀ c ∈ a.toList, c ≠ '.') → stepOf (a ++ "." ++ b) = a := by
  obtain ⟨h1, h2⟩ := (run_from_begin exec prep cfg d).2.2 hw
  refine ⟨h1, h2, fun a b ha => ?_⟩
  unfold stepOf
  rw [String.toList_append, String.toList_append, List.append_assoc]
  show String.ofList (beforeDot (a.toList ++ '.' :: b.toList)) = a
  rw [beforeDot_dot _ _ ha, String.ofList_toList]

/-- Test of the hypothesis. -/
example : WellFormed ([("matching_cost", ()), ("disparity", ()), ("refinement.a", ()), ("refinement.b", ())].map
    (stepOf ∘ Prod.fst)) := ⟨false, 2, by decide⟩

/-! ## C31 -/

/-- An operation on the machine. -/
inductive Op (P : Type) where
  | check (cfg : Pipeline P)
  | run (cfg : Pipeline P)

def Op.apply (exec : Exec D P) (prep : D → D) : Op P → Mach D → Mach D × Option Err
  | .check cfg, m => checkConf exec cfg m
  | .run cfg, m => runAll exec prep cfg m

/-- C31: after any history of successful checks and runs, the machine has the state and the transitions of a new machine. -/
theorem C31_back_to_initial (exec : Exec D P) (prep : D → D) (ops : List (Op P)) :
    ∀ (d : D) (ms : List (Mach D)), ms.length = ops.length + 1 → ms[0]? = some (fresh d) →
    (∀ k (hk : k < ops.length), ∀ m, ms[k]? = some m → ((ops[k]).apply exec prep m).2 = none ∧
      ms[k + 1]? = some ((ops[k]).apply exec prep m).1) →
    ∀ m ∈ ms, m.state = .begin ∧ m.transitions = [] := by
  intro d ms hlen h0 hstep
  have key : ∀ k, k ≤ ops.length → ∃ d', ms[k]? = some (fresh d') := by
    intro k
    induction k with
    | zero => exact fun _ => ⟨d, h0⟩
    | succ k ih =>
      intro hk
      obtain ⟨d', e⟩ := ih (by omega)
      obtain ⟨a, b⟩ := hstep k (by omega) _ e
      rw [b]
      cases hop : ops[k] with
      | check cfg =>
        rw [hop] at a
        exact ⟨_, congrArg some ((check_from_begin exec cfg d').2 a)⟩
      | run cfg =>
        rw [hop] at a
        exact ⟨_, congrArg some ((run_from_begin exec prep cfg d').2.1 a)⟩
  intro m hm
  obtain ⟨k, hk, e⟩ := List.mem_iff_getElem.1 hm
  obtain ⟨d', e'⟩ := key k (by omega)
  rw [List.getElem?_eq_getElem hk, Option.some.injEq, e] at e'
  rw [e']
  exact ⟨rfl, rfl⟩

/-- Test: a check, a run and a check which all succeed. -/
example : let exec : Exec Nat Unit := fun _ _ _ d => (d + 1, none)
    let cfg : Pipeline Unit := [("estimation", ()), ("matching_cost", ()), ("disparity", ()), ("refinement", ())]
    let m1 := checkConf exec cfg (fresh 0)
    let m2 := runAll exec id cfg m1.1
    let m3 := checkConf exec cfg m2.1
    m1.2 = none ∧ m2.2 = none ∧ m3.2 = none ∧ m3.1.data = 13 := by decide

/-! ## C32 -/

/-- C32, full statement: after a rejected pipeline, a pipeline accepted by a new machine is accepted. -/
def C32Statement : Prop :=
  ∀ (bad good : Pipeline Unit), (checkConf (fun _ _ _ d => (d, none)) bad (fresh ())).2 ≠ none →
    (checkConf (fun _ _ _ d => (d, none)) good (fresh ())).2 = none →
    (checkConf (fun _ _ _ d => (d, none)) good (checkConf (fun _ _ _ d => (d, none)) bad (fresh ())).1).2 = none

/-- C32 is false of the code: `matching_cost refinement` is rejected at its second step, and the machine then refuses
`matching_cost disparity`. -/
theorem C32_false : ¬ C32Statement := by
  intro h
  have := h [("matching_cost", ()), ("refinement", ())] [("matching_cost", ()), ("disparity", ())] (by decide) (by decide)
  revert this
  decide

theorem like_check_append (T : List Trans) (h : Like T transitionsCheck) : Like (T ++ transitionsCheck) transitionsCheck :=
  like_append T transitionsCheck transitionsCheck h (fun _ _ h => h) (fun _ h => h)

theorem like_run_append (T : List Trans) (h : Like T transitionsCheck) : Like (T ++ transitionsRun) transitionsCheck := by
  apply like_append T transitionsRun transitionsCheck h
  · intro x s hs
    rw [look_run] at hs
    rw [look_check]
    split at hs <;> simp_all
  · intro x hx
    rw [List.all_eq_true] at hx ⊢
    intro t ht
    have e : ∀ t ∈ transitionsRun, ∃ t' ∈ transitionsCheck, t'.trigger = t.trigger := by decide
    obtain ⟨t', h', e'⟩ := e t ht
    have := hx t' h'
    rw [e'] at this
    exact this

/-- A machine left in `cost_volumes` or `disp_maps` by a rejected pipeline refuses the first step of every well-formed
pipeline, and stays in this state: it never recovers, whatever the number of attempts. -/
theorem C32_poisoned_forever (exec : Exec D P) (cfgs : List (Pipeline P))
    (hc : ∀ cfg ∈ cfgs, WellFormed (cfg.map Prod.fst) ∧ cfg ≠ []) :
    ∀ (m : Mach D), Like m.transitions transitionsCheck → (m.state = .costVolumes ∨ m.state = .dispMaps) →
    (cfgs.foldl (fun (acc : Mach D × Bool) cfg => ((checkConf exec cfg acc.1).1, acc.2 && (checkConf exec cfg acc.1).2.isSome))
      (m, true)).2 = true := by
  induction cfgs with
  | nil => intro m _ _; rfl
  | cons cfg cfgs ih =>
    intro m hl hs
    obtain ⟨hw, hne⟩ := hc cfg (by simp)
    have hT := table_like (like_check_append _ hl) table_check
    obtain ⟨x, cfg', rfl⟩ := List.exists_cons_of_ne_nil hne
    rw [wellFormed_iff] at hw
    simp only [List.map_cons, path] at hw
    have hx : x.1 = "estimation" ∨ x.1 = "matching_cost" := by
      cases hn : next .begin x.1 with
      | none => rw [hn] at hw; simp at hw
      | some s => rcases next_begin hn with h | h; exact Or.inl h.1; exact Or.inr h.1
    have hnone : next m.state x.1 = none := by
      rcases hs with h | h <;> rcases hx with h' | h' <;> rw [h, h'] <;> rfl
    have hchk : ∃ e, checkConf exec (x :: cfg') m = ({ m with transitions := m.transitions ++ transitionsCheck }, some e) := by
      unfold checkConf
      simp only [List.map_cons, loop]
      rcases trigger_error exec (x :: cfg') x.1 x.1 { m with transitions := m.transitions ++ transitionsCheck } checkCallbacks
        hT hnone with h | h <;> rw [h] <;> exact ⟨_, rfl⟩
    obtain ⟨e, he⟩ := hchk
    rw [List.foldl_cons]
    simp only [he, Option.isSome_some, Bool.and_true]
    exact ih (fun c hc' => hc c (by simp [hc'])) _ (like_check_append _ hl) hs

/-- Test: the state left by `matching_cost refinement`. -/
example : (checkConf (fun _ _ _ d => (d, none)) [("matching_cost", ()), ("refinement", ())] (fresh ())).1.state = .costVolumes :=
  by decide

/-- C32 (partial): when the rejected pipeline was refused at its first step (unknown or misplaced step, or its check raised),
a pipeline is then accepted exactly when a new machine with the same attributes accepts it, and the transitions left behind are
removed. Missing: pipelines refused at a later step, where the statement is false. -/
theorem C32_refused_at_first_step_partial (exec : Exec D P) (x : String × P) (bad good : Pipeline P) (d : D)
    (h : next .begin x.1 = none ∨ (runCallbacks exec (x :: bad) ((checkCallbacks x.1).map fun cb => (cb, x.1)) d).2 ≠ none) :
    let m := (checkConf exec (x :: bad) (fresh d)).1
    (checkConf exec (x :: bad) (fresh d)).2 ≠ none ∧
    ((checkConf exec good m).2 = none ↔ (checkConf exec good (fresh m.data)).2 = none) ∧
    ((checkConf exec good m).2 = none → (checkConf exec good m).1 = (checkConf exec good (fresh m.data)).1) := by
  -- the machine after the refusal
  have hm : ∃ d' e, checkConf exec (x :: bad) (fresh d) = (⟨.begin, transitionsCheck, d'⟩, some e) := by
    unfold checkConf
    simp only [List.map_cons, loop, fresh, List.nil_append]
    rcases hn : next .begin x.1 with _ | s
    · rcases trigger_error exec (x :: bad) x.1 x.1 ⟨.begin, transitionsCheck, d⟩ checkCallbacks table_check hn with h | h <;>
        rw [h] <;> exact ⟨_, _, rfl⟩
    · rw [hn] at h
      simp only [reduceCtorEq, false_or] at h
      rw [trigger_ok exec (x :: bad) x.1 x.1 ⟨.begin, transitionsCheck, d⟩ checkCallbacks table_check hn]
      rcases hr : runCallbacks exec (x :: bad) ((checkCallbacks x.1).map fun cb => (cb, x.1)) d with ⟨d', _ | e⟩
      · rw [hr] at h; simp at h
      · exact ⟨_, _, rfl⟩
  obtain ⟨d', e, hm⟩ := hm
  simp only
  rw [hm]
  simp only [ne_eq, reduceCtorEq, not_false_eq_true, true_and]
  have hT1 : Table (transitionsCheck ++ transitionsCheck) checkCallbacks :=
    table_like (like_check_append _ (like_refl _)) table_check
  rw [(check_from_begin exec good d').1, wellFormed_iff]
  cases hp : path .begin (good.map Prod.fst) with
  | none =>
    have := loop_no_path exec good id checkCallbacks (good.map Prod.fst) ⟨.begin, transitionsCheck ++ transitionsCheck, d'⟩
      hT1 (by rw [List.map_id]; exact hp)
    simp only [id] at this
    unfold checkConf
    simp only
    rcases hl : loop (fun s => trigger exec good s s) (good.map Prod.fst) _ with ⟨m', _ | e⟩
    · rw [hl] at this; simp at this
    · simp
  | some s' =>
    obtain ⟨h1, h2, h3, -⟩ := loop_path exec good id checkCallbacks (good.map Prod.fst)
      ⟨.begin, transitionsCheck ++ transitionsCheck, d'⟩ s' hT1 (by rw [List.map_id]; exact hp)
    simp only [id] at h1 h2 h3
    have hfresh := (check_from_begin exec good d').2
    have hiff := (check_from_begin exec good d').1
    rw [wellFormed_iff, hp] at hiff
    unfold checkConf at hfresh hiff ⊢
    simp only at hfresh hiff ⊢
    rcases hl : loop (fun s => trigger exec good s s) (good.map Prod.fst) ⟨.begin, transitionsCheck ++ transitionsCheck, d'⟩ with
      ⟨m', _ | e⟩
    · rw [hl] at h1 h2 h3
      simp only at h1 h2 h3
      simp only [Option.isSome_some, true_and, true_iff, forall_const] at hiff ⊢
      refine ⟨h1.symm, ?_⟩
      rw [hfresh (hiff.2 h1.symm)]
      unfold fresh removeTransitions
      rw [h3]
      simp only [Mach.mk.injEq, true_and]
      refine ⟨by decide, h2⟩
    · rw [hl] at h1
      simp only at h1
      simp only [Option.isSome_some, true_and, reduceCtorEq, false_iff, false_implies, and_true]
      intro hh
      have h1' : (runCallbacks exec good (checkPlan (good.map Prod.fst)) d').2 = some e := h1.symm
      rw [h1'] at hh
      simp at hh

/-- Consequence of the transitions left behind by a refusal at the first step: a run of a well-formed pipeline on this machine
executes the checks of the steps instead of their processing. -/
theorem C32_run_after_refusal (exec : Exec D P) (prep : D → D) (cfg : Pipeline P) (m : Mach D)
    (hl : Like m.transitions transitionsCheck) (hs : m.state = .begin) (hw : WellFormed (cfg.map Prod.fst)) :
    (runAll exec prep cfg m).2 = (runCallbacks exec cfg (checkPlan (cfg.map Prod.fst)) (prep m.data)).2 ∧
    (runAll exec prep cfg m).1.data = (runCallbacks exec cfg (checkPlan (cfg.map Prod.fst)) (prep m.data)).1 := by
  have hb := wellFormed_stepOf hw
  have hnames := path_names ((wellFormed_iff _).1 hw)
  obtain ⟨s', hp⟩ := Option.isSome_iff_exists.1 ((wellFormed_iff _).1 hw)
  have hT := table_like (like_run_append _ hl) table_check
  obtain ⟨h1, h2, -⟩ := loop_path exec cfg stepOf checkCallbacks (cfg.map Prod.fst)
    { m with data := prep m.data, transitions := m.transitions ++ transitionsRun } s' hT (by rw [hb, hs]; exact hp)
  have hplan : (cfg.map Prod.fst).flatMap (fun s => (checkCallbacks (stepOf s)).map fun cb => (cb, s)) =
      checkPlan (cfg.map Prod.fst) := by
    unfold checkPlan
    generalize cfg.map Prod.fst = l at hnames
    clear h1 h2 hp hb hw hT
    induction l with
    | nil => rfl
    | cons x l ih =>
      rw [List.flatMap_cons, List.flatMap_cons, stepOf_of_mem (hnames x (by simp)), ih (fun y hy => hnames y (by simp [hy]))]
  rw [hplan] at h1 h2
  unfold runAll runStep
  rw [baseName_eq]
  rcases hl' : loop (fun s => trigger exec cfg (stepOf s) s) (cfg.map Prod.fst)
      { m with data := prep m.data, transitions := m.transitions ++ transitionsRun } with ⟨m', _ | e⟩ <;>
    rw [hl'] at h1 h2 <;> exact ⟨h1, h2⟩

/-- Test: after the refusal of an unknown step, a run with a callback counter per kind of callback. -/
example : let exec : Exec (Nat × Nat) Unit := fun cb _ _ d =>
      (if cb ∈ [Cb.estimationCheck, .matchingCostCheck, .disparityCheck, .refinementCheck] then (d.1 + 1, d.2) else (d.1, d.2 + 1), none)
    let m := (checkConf exec [("filter", ())] (fresh (0, 0))).1
    m.state = .begin ∧ m.transitions = transitionsCheck ∧
    (runAll exec id [("matching_cost", ()), ("disparity", ())] m).1.data = (2, 0) := by decide

/-! ## C33 -/

section C33

variable {M : Type}

theorem dictSet_keys {α : Type} (d : List (String × α)) (k : String) (v : α) :
    (dictSet d k v).map Prod.fst = if k ∈ d.map Prod.fst then d.map Prod.fst else d.map Prod.fst ++ [k] := by
  unfold dictSet
  by_cases h : k ∈ d.map Prod.fst
  · rw [if_pos h, if_pos (by
      obtain ⟨p, hp, e⟩ := List.mem_map.1 h
      rw [List.any_eq_true]
      exact ⟨p, hp, by simpa using e⟩), List.map_map]
    apply List.map_congr_left
    intro p _
    simp only [Function.comp]
    split_ifs with e
    · exact e.symm
    · rfl
  · rw [if_neg h, if_neg (by
      rw [List.any_eq_true]
      rintro ⟨p, hp, e⟩
      exact h (List.mem_map.2 ⟨p, hp, by simpa using e⟩)), List.map_append]
    rfl

theorem dictSet_mem {α : Type} (d : List (String × α)) (k : String) (v : α) (x : String × α) :
    x ∈ dictSet d k v ↔ x = (k, v) ∨ (x ∈ d ∧ x.1 ≠ k) := by
  unfold dictSet
  split_ifs with h
  · rw [List.mem_map]
    constructor
    · rintro ⟨p, hp, e⟩
      split_ifs at e with e'
      · exact Or.inl e.symm
      · exact Or.inr (e ▸ ⟨hp, e'⟩)
    · rintro (rfl | ⟨h1, h2⟩)
      · rw [List.any_eq_true] at h
        obtain ⟨p, hp, e⟩ := h
        exact ⟨p, hp, by rw [if_pos (by simpa using e)]⟩
      · exact ⟨x, h1, by rw [if_neg h2]⟩
  · rw [List.mem_append, List.mem_singleton]
    constructor
    · rintro (h1 | h1)
      · refine Or.inr ⟨h1, fun e => h ?_⟩
        rw [List.any_eq_true]
        exact ⟨x, h1, by simpa using e⟩
      · exact Or.inl h1
    · rintro (h1 | ⟨h1, -⟩)
      · exact Or.inr h1
      · exact Or.inl h1

/-- The keys of a dictionary after the assignment of `l`. -/
def addKeys (ks : List String) (l : List String) : List String := l.foldl (fun ks s => if s ∈ ks then ks else ks ++ [s]) ks

theorem lookup_ok {cfg : Pipeline P} {s : String} {p : P} (h : lookup cfg s = .ok p) : (s, p) ∈ cfg := by
  unfold lookup at h
  cases hf : cfg.find? (fun p => decide (p.1 = s)) with
  | none => rw [hf] at h; simp at h
  | some q =>
    rw [hf] at h
    simp only [Except.ok.injEq] at h
    have h1 := List.mem_of_find?_eq_some hf
    have h2 := List.find?_some hf
    simp only [decide_eq_true_eq] at h2
    rw [← h, ← h2]
    exact h1

theorem bind_ok {α β : Type} {a : Except Err α} {f : α → Except Err β} {b : β} (h : (a >>= f) = .ok b) :
    ∃ x, a = .ok x ∧ f x = .ok b := by
  cases a with
  | error e => exact absurd h (by simp [bind, Except.bind])
  | ok x => exact ⟨x, rfl, h⟩

/-- What one successful check writes. -/
theorem check_one (st : Steps P M) (cfg : Pipeline P) (s : String) (hs : s ∈ stepNames) (d : Attrs P M)
    (h : (runCallbacks (checkExec st) cfg ((checkCallbacks s).map fun cb => (cb, s)) d).2 = none) :
    let d' := (runCallbacks (checkExec st) cfg ((checkCallbacks s).map fun cb => (cb, s)) d).1
    ∃ p c, (s, p) ∈ cfg ∧ Checked st s p c ∧ d'.pipelineCfg = dictSet d.pipelineCfg s c ∧
      ((s = "matching_cost" ∨ s = "disparity") → ∃ m, d'.cumulative = dictSet d.cumulative s m ∧
        d'.nonCumulative = d.nonCumulative) ∧
      (s = "refinement" → d'.cumulative = d.cumulative ∧ ∃ m, d'.nonCumulative = dictSet d.nonCumulative s m) ∧
      (s = "estimation" → d'.cumulative = d.cumulative ∧ d'.nonCumulative = d.nonCumulative) := by
  simp only [stepNames, List.mem_cons, List.not_mem_nil, or_false] at hs
  rcases hs with rfl | rfl | rfl | rfl
  · have e : (checkCallbacks "estimation").map (fun cb => (cb, "estimation")) = [(.estimationCheck, "estimation")] := by decide
    rw [e] at h ⊢
    cases hr : lookup cfg "estimation" >>= st.estimation with
    | error e => simp [runCallbacks, checkExec, hr] at h
    | ok c =>
      obtain ⟨p, h1, h2⟩ := bind_ok hr
      refine ⟨p, c, lookup_ok h1, Or.inl ⟨rfl, h2⟩, ?_⟩
      simp [runCallbacks, checkExec, hr]
  · have e : (checkCallbacks "matching_cost").map (fun cb => (cb, "matching_cost")) = [(.matchingCostCheck, "matching_cost")] := by
      decide
    rw [e] at h ⊢
    cases hr : lookup cfg "matching_cost" >>= st.matchingCost with
    | error e => simp [runCallbacks, checkExec, hr] at h
    | ok c =>
      obtain ⟨p, h1, h2⟩ := bind_ok hr
      obtain ⟨c, a, b, m⟩ := c
      refine ⟨p, c, lookup_ok h1, Or.inr (Or.inl ⟨rfl, a, b, m, h2⟩), ?_⟩
      simp [runCallbacks, checkExec, hr]
  · have e : (checkCallbacks "disparity").map (fun cb => (cb, "disparity")) = [(.disparityCheck, "disparity")] := by decide
    rw [e] at h ⊢
    cases hr : lookup cfg "disparity" >>= st.disparity with
    | error e => simp [runCallbacks, checkExec, hr] at h
    | ok c =>
      obtain ⟨p, h1, h2⟩ := bind_ok hr
      obtain ⟨c, m⟩ := c
      refine ⟨p, c, lookup_ok h1, Or.inr (Or.inr (Or.inl ⟨rfl, m, h2⟩)), ?_⟩
      simp [runCallbacks, checkExec, hr]
  · have e : (checkCallbacks "refinement").map (fun cb => (cb, "refinement")) = [(.refinementCheck, "refinement")] := by decide
    rw [e] at h ⊢
    cases hr : (lookup cfg "refinement" >>= fun c => st.refinement c d.step d.windowSize) with
    | error e => simp [runCallbacks, checkExec, hr] at h
    | ok c =>
      obtain ⟨p, h1, h2⟩ := bind_ok hr
      obtain ⟨c, m⟩ := c
      refine ⟨p, c, lookup_ok h1, Or.inr (Or.inr (Or.inr ⟨rfl, d.step, d.windowSize, m, h2⟩)), ?_⟩
      simp [runCallbacks, checkExec, hr]

/-- What the checks of a list of steps write. -/
theorem check_list (st : Steps P M) (cfg : Pipeline P) (l : List String) (hl : ∀ s ∈ l, s ∈ stepNames) :
    ∀ d : Attrs P M, (runCallbacks (checkExec st) cfg (checkPlan l) d).2 = none →
    let d' := (runCallbacks (checkExec st) cfg (checkPlan l) d).1
    d'.pipelineCfg.map Prod.fst = addKeys (d.pipelineCfg.map Prod.fst) l ∧
    d'.cumulative.map Prod.fst =
      addKeys (d.cumulative.map Prod.fst) (l.filter fun s => decide (s = "matching_cost" ∨ s = "disparity")) ∧
    d'.nonCumulative.map Prod.fst = addKeys (d.nonCumulative.map Prod.fst) (l.filter fun s => decide (s = "refinement")) ∧
    (∀ x ∈ d'.pipelineCfg, x.1 ∈ l → ∃ p, (x.1, p) ∈ cfg ∧ Checked st x.1 p x.2) ∧
    (∀ x : String × P, x.1 ∉ l → (x ∈ d'.pipelineCfg ↔ x ∈ d.pipelineCfg)) := by
  induction l with
  | nil => intro d _; simp [checkPlan, runCallbacks, addKeys]
  | cons s l ih =>
    intro d h
    have hplan : checkPlan (s :: l) = ((checkCallbacks s).map fun cb => (cb, s)) ++ checkPlan l := by
      simp [checkPlan]
    rw [hplan, runCallbacks_append] at h ⊢
    have h1 := check_one st cfg s (hl s (by simp)) d
    rcases hr : runCallbacks (checkExec st) cfg ((checkCallbacks s).map fun cb => (cb, s)) d with ⟨d1, _ | e⟩
    · rw [hr] at h h1
      simp only at h
      obtain ⟨p, c, hp, hc, h2, h3, h4, h5⟩ := h1 rfl
      obtain ⟨i1, i2, i3, i4, i5⟩ := ih (fun s' hs' => hl s' (by simp [hs'])) d1 h
      simp only at h2 h3 h4 h5 ⊢
      have hs := hl s (by simp)
      simp only [stepNames, List.mem_cons, List.not_mem_nil, or_false] at hs
      refine ⟨?_, ?_, ?_, ?_, ?_⟩
      · rw [i1, h2, dictSet_keys]; rfl
      · rw [i2]
        rcases hs with rfl | rfl | rfl | rfl
        · rw [(h5 rfl).1]; rfl
        · obtain ⟨m, e, -⟩ := h3 (Or.inl rfl)
          rw [e, dictSet_keys]; rfl
        · obtain ⟨m, e, -⟩ := h3 (Or.inr rfl)
          rw [e, dictSet_keys]; rfl
        · rw [(h4 rfl).1]; rfl
      · rw [i3]
        rcases hs with rfl | rfl | rfl | rfl
        · rw [(h5 rfl).2]; rfl
        · obtain ⟨m, -, e⟩ := h3 (Or.inl rfl)
          rw [e]; rfl
        · obtain ⟨m, -, e⟩ := h3 (Or.inr rfl)
          rw [e]; rfl
        · obtain ⟨m, e⟩ := (h4 rfl).2
          rw [e, dictSet_keys]; rfl
      · intro x hx hxl
        by_cases hm : x.1 ∈ l
        · exact i4 x hx hm
        · have hx' := (i5 x hm).1 hx
          rw [h2, dictSet_mem] at hx'
          rcases List.mem_cons.1 hxl with e | e
          · rcases hx' with rfl | ⟨-, h'⟩
            · exact ⟨p, hp, hc⟩
            · exact absurd e h'
          · exact absurd e hm
      · intro x hx
        rw [List.mem_cons, not_or] at hx
        rw [i5 x hx.2, h2, dictSet_mem]
        constructor
        · rintro (rfl | ⟨h', -⟩)
          · exact absurd rfl hx.1
          · exact h'
        · intro h'
          exact Or.inr ⟨h', hx.1⟩
    · rw [hr] at h
      simp at h

theorem addKeys_disjoint (ks l : List String) (hn : l.Nodup) (hd : ∀ s ∈ l, s ∉ ks) : addKeys ks l = ks ++ l := by
  induction l generalizing ks with
  | nil => simp [addKeys]
  | cons s l ih =>
    rw [List.nodup_cons] at hn
    show addKeys (if s ∈ ks then ks else ks ++ [s]) l = _
    rw [if_neg (hd s (by simp)), ih _ hn.2, List.append_assoc]
    · rfl
    · intro t ht
      rw [List.mem_append, List.mem_singleton]
      rintro (h | rfl)
      · exact hd t (by simp [ht]) h
      · exact hn.1 ht

theorem addKeys_subset (ks l : List String) (hd : ∀ s ∈ l, s ∈ ks) : addKeys ks l = ks := by
  induction l with
  | nil => rfl
  | cons s l ih =>
    show addKeys (if s ∈ ks then ks else ks ++ [s]) l = _
    rw [if_pos (hd s (by simp)), ih (fun t ht => hd t (by simp [ht]))]

theorem updatePipeline_keys (mrg : P → P → P) (user machine : Pipeline P) :
    (updatePipeline mrg user machine).map Prod.fst = addKeys (user.map Prod.fst) (machine.map Prod.fst) := by
  unfold updatePipeline
  induction machine generalizing user with
  | nil => rfl
  | cons kv machine ih =>
    rw [List.foldl_cons, ih, List.map_cons]
    show _ = addKeys (if kv.1 ∈ user.map Prod.fst then user.map Prod.fst else user.map Prod.fst ++ [kv.1]) _
    congr 1
    split <;> rw [dictSet_keys]

/-- C33 (partial): on a new machine, the checked pipeline and the machine's copy contain exactly the steps of the given
pipeline in its order, each with its own checked configuration; the margins are those of its steps. Missing: a machine already
used, where the statement is false. -/
theorem C33_new_machine_partial (st : Steps P M) (mrg : P → P → P) (cfg : Pipeline P) (hn : (cfg.map Prod.fst).Nodup)
    {m : Mach (Attrs P M)} {out : Pipeline P}
    (h : checkPipelineSection st mrg cfg (fresh .init) = (m, .ok out)) :
    out.map Prod.fst = cfg.map Prod.fst ∧
    m.data.pipelineCfg.map Prod.fst = cfg.map Prod.fst ∧
    (∀ x ∈ m.data.pipelineCfg, ∃ p, (x.1, p) ∈ cfg ∧ Checked st x.1 p x.2) ∧
    m.data.cumulative.map Prod.fst = (cfg.map Prod.fst).filter (fun s => decide (s = "matching_cost" ∨ s = "disparity")) ∧
    m.data.nonCumulative.map Prod.fst = (cfg.map Prod.fst).filter (fun s => decide (s = "refinement")) := by
  unfold checkPipelineSection at h
  obtain ⟨hiff, hm⟩ := check_from_begin (checkExec st) cfg (.init : Attrs P M)
  rcases hc : checkConf (checkExec st) cfg (fresh .init) with ⟨m', _ | e⟩
  · rw [hc] at h hiff hm
    simp only [Prod.mk.injEq, Except.ok.injEq] at h
    obtain ⟨rfl, rfl⟩ := h
    obtain ⟨hw, hr⟩ := hiff.1 rfl
    have hm' := hm rfl
    simp only at hm'
    obtain ⟨i1, i2, i3, i4, i5⟩ := check_list st cfg _ (path_names ((wellFormed_iff _).1 hw)) .init hr
    have hd : m'.data = (runCallbacks (checkExec st) cfg (checkPlan (cfg.map Prod.fst)) .init).1 := by rw [hm']; rfl
    rw [← hd] at i1 i2 i3 i4 i5
    have e1 : m'.data.pipelineCfg.map Prod.fst = cfg.map Prod.fst := by
      rw [i1, addKeys_disjoint _ _ hn (by simp [Attrs.init])]; simp [Attrs.init]
    refine ⟨?_, e1, ?_, ?_, ?_⟩
    · rw [updatePipeline_keys, e1, addKeys_subset _ _ (fun _ h => h)]
    · intro x hx
      apply i4 x hx
      rw [← e1]
      exact List.mem_map_of_mem hx
    · rw [i2, addKeys_disjoint _ _ (hn.filter _) (by simp [Attrs.init])]; simp [Attrs.init]
    · rw [i3, addKeys_disjoint _ _ (hn.filter _) (by simp [Attrs.init])]; simp [Attrs.init]
  · rw [hc] at h
    simp at h

/-- Steps whose checks change nothing. -/
def plainSteps : Steps Nat Nat where
  estimation p := .ok p
  matchingCost p := .ok (p, 1, 5, 2)
  disparity p := .ok (p, 0)
  refinement p _ _ := .ok (p, 3)

/-- Test: a successful check. -/
example : (checkPipelineSection plainSteps (fun _ b => b) [("matching_cost", 1), ("disparity", 2), ("refinement", 3)]
    (fresh .init)).2 = .ok [("matching_cost", 1), ("disparity", 2), ("refinement", 3)] := by decide

/-- C33: a machine which has already checked a pipeline keeps its steps: after any second successful check, the checked
pipeline contains the steps of the second pipeline followed by all the steps of the first which the second does not have. -/
theorem C33_stale_steps_are_kept (st : Steps P M) (mrg : P → P → P) (first second : Pipeline P)
    (hn1 : (first.map Prod.fst).Nodup)
    {m1 m2 : Mach (Attrs P M)} {out1 out2 : Pipeline P}
    (h1 : checkPipelineSection st mrg first (fresh .init) = (m1, .ok out1))
    (h2 : checkPipelineSection st mrg second m1 = (m2, .ok out2)) :
    ∀ s, s ∈ out2.map Prod.fst ↔ s ∈ second.map Prod.fst ∨ s ∈ first.map Prod.fst := by
  have hf := (C33_new_machine_partial st mrg first hn1 h1).2.1
  -- the first machine is back in its initial state
  have hm1 : m1 = fresh m1.data := by
    unfold checkPipelineSection at h1
    have hm := (check_from_begin (checkExec st) first (.init : Attrs P M)).2
    rcases hc : checkConf (checkExec st) first (fresh .init) with ⟨m', _ | e⟩
    · rw [hc] at h1 hm
      simp only [Prod.mk.injEq, Except.ok.injEq] at h1
      have := hm rfl
      simp only at this
      rw [← h1.1, this]; rfl
    · rw [hc] at h1; simp at h1
  rw [hm1] at h2
  unfold checkPipelineSection at h2
  obtain ⟨hiff, hm⟩ := check_from_begin (checkExec st) second m1.data
  rcases hc : checkConf (checkExec st) second (fresh m1.data) with ⟨m', _ | e⟩
  · rw [hc] at h2 hiff hm
    simp only [Prod.mk.injEq, Except.ok.injEq] at h2
    obtain ⟨rfl, rfl⟩ := h2
    obtain ⟨hw, hr⟩ := hiff.1 rfl
    have hm' := hm rfl
    simp only at hm'
    obtain ⟨i1, -⟩ := check_list st second _ (path_names ((wellFormed_iff _).1 hw)) m1.data hr
    have hd : m'.data = (runCallbacks (checkExec st) second (checkPlan (second.map Prod.fst)) m1.data).1 := by rw [hm']; rfl
    rw [← hd] at i1
    have mem : ∀ (l ks : List String) (s : String), s ∈ addKeys ks l ↔ s ∈ ks ∨ s ∈ l := by
      intro l
      induction l with
      | nil => intro ks s; simp [addKeys]
      | cons t l ih =>
        intro ks s
        show s ∈ addKeys (if t ∈ ks then ks else ks ++ [t]) l ↔ _
        rw [ih]
        split_ifs with ht
        · simp only [List.mem_cons]
          constructor
          · rintro (h | h)
            · exact Or.inl h
            · exact Or.inr (Or.inr h)
          · rintro (h | rfl | h)
            · exact Or.inl h
            · exact Or.inl ht
            · exact Or.inr h
        · simp only [List.mem_append, List.mem_cons, List.not_mem_nil, or_false, or_assoc]
    intro s
    rw [updatePipeline_keys, mem, i1, mem, hf]
    tauto
  · rw [hc] at h2
    simp at h2

/-- C33, full statement: the checked pipeline has the steps of the given pipeline. -/
def C33Statement : Prop :=
  ∀ (first second : Pipeline Nat) (m1 m2 : Mach (Attrs Nat Nat)) (out1 out2 : Pipeline Nat),
    checkPipelineSection plainSteps (fun _ b => b) first (fresh .init) = (m1, .ok out1) →
    checkPipelineSection plainSteps (fun _ b => b) second m1 = (m2, .ok out2) →
    out2.map Prod.fst = second.map Prod.fst

/-- C33 is false of a machine used twice: after a check with a refinement, the check of the same pipeline without it returns a
pipeline with the refinement, which the run then executes. -/
theorem C33_false_on_reuse : ¬ C33Statement := by
  intro h
  have := h [("matching_cost", 1), ("disparity", 2), ("refinement", 3)] [("matching_cost", 1), ("disparity", 2)] _ _ _ _
    rfl rfl
  revert this
  decide

end C33

end Verif.Props
