import Verif.Spec.Machine

/-! Lemmas on the state machine. -/

namespace Verif.Machine
open Verif Verif.Spec

/-- The graph of the states. -/
def next : St → String → Option St
  | .begin, "estimation" => some .assumption
  | .begin, "matching_cost" => some .costVolumes
  | .assumption, "matching_cost" => some .costVolumes
  | .costVolumes, "disparity" => some .dispMaps
  | .dispMaps, "refinement" => some .dispMaps
  | _, _ => none

/-- Path in the graph. -/
def path : St → List String → Option St
  | s, [] => some s
  | s, x :: xs => match next s x with
    | some s' => path s' xs
    | none => none

def stepNames : List String := ["estimation", "matching_cost", "disparity", "refinement"]

theorem next_names {s s' : St} {x : String} (h : next s x = some s') : x ∈ stepNames := by
  unfold next at h
  split at h <;> simp_all [stepNames]

/-! ### Lookup in the transitions -/

def look (T : List Trans) (x : String) (s : St) : Option Trans :=
  T.find? (fun t => decide (t.trigger = x) && decide (t.source = s))

/-- Two lists of transitions give the same answers. -/
def Like (T U : List Trans) : Prop :=
  (∀ x s, look T x s = look U x s) ∧ ∀ x, (T.all (fun t => decide (t.trigger ≠ x)) = U.all (fun t => decide (t.trigger ≠ x)))

theorem like_refl (T : List Trans) : Like T T := ⟨fun _ _ => rfl, fun _ => rfl⟩

/-- Transitions added at the end are not used when they have the triggers and the sources of the first ones. -/
theorem like_append (T U V : List Trans) (h : Like T V)
    (h1 : ∀ x s, (look U x s).isSome = true → (look V x s).isSome = true)
    (h2 : ∀ x, V.all (fun t => decide (t.trigger ≠ x)) = true → U.all (fun t => decide (t.trigger ≠ x)) = true) :
    Like (T ++ U) V := by
  refine ⟨fun x s => ?_, fun x => ?_⟩
  · have := h.1 x s
    have h1 := h1 x s
    unfold look at *
    rw [List.find?_append, this]
    cases e : V.find? _ with
    | some t => rfl
    | none =>
      rw [e] at h1
      cases e2 : U.find? (fun t => decide (t.trigger = x) && decide (t.source = s)) with
      | none => rfl
      | some t => rw [e2] at h1; simp at h1
  · rw [List.all_append, h.2 x]
    cases e : V.all (fun t => decide (t.trigger ≠ x)) with
    | false => rfl
    | true => rw [h2 x e]; rfl

theorem look_check (x : String) (s : St) : look transitionsCheck x s =
    match s, x with
    | .begin, "estimation" => some ⟨"estimation", .begin, .assumption, none, .estimationCheck⟩
    | .begin, "matching_cost" => some ⟨"matching_cost", .begin, .costVolumes, none, .matchingCostCheck⟩
    | .assumption, "matching_cost" => some ⟨"matching_cost", .assumption, .costVolumes, none, .matchingCostCheck⟩
    | .costVolumes, "disparity" => some ⟨"disparity", .costVolumes, .dispMaps, none, .disparityCheck⟩
    | .dispMaps, "refinement" => some ⟨"refinement", .dispMaps, .dispMaps, none, .refinementCheck⟩
    | _, _ => none := by
  unfold look transitionsCheck
  cases s <;> simp only [List.find?_cons, List.find?_nil] <;>
    by_cases h1 : "estimation" = x <;> by_cases h2 : "matching_cost" = x <;> by_cases h3 : "disparity" = x <;>
    by_cases h4 : "refinement" = x <;> (try subst h1) <;> (try subst h2) <;> (try subst h3) <;> (try subst h4) <;>
    simp_all <;> (split <;> simp_all)

theorem look_run (x : String) (s : St) : look transitionsRun x s =
    match s, x with
    | .begin, "estimation" => some ⟨"estimation", .begin, .assumption, none, .estimationRun⟩
    | .begin, "matching_cost" => some ⟨"matching_cost", .begin, .costVolumes, some .matchingCostPrepare, .matchingCostRun⟩
    | .assumption, "matching_cost" => some ⟨"matching_cost", .assumption, .costVolumes, some .matchingCostPrepare, .matchingCostRun⟩
    | .costVolumes, "disparity" => some ⟨"disparity", .costVolumes, .dispMaps, none, .dispMapsRun⟩
    | .dispMaps, "refinement" => some ⟨"refinement", .dispMaps, .dispMaps, none, .refinementRun⟩
    | _, _ => none := by
  unfold look transitionsRun
  cases s <;> simp only [List.find?_cons, List.find?_nil] <;>
    by_cases h1 : "estimation" = x <;> by_cases h2 : "matching_cost" = x <;> by_cases h3 : "disparity" = x <;>
    by_cases h4 : "refinement" = x <;> (try subst h1) <;> (try subst h2) <;> (try subst h3) <;> (try subst h4) <;>
    simp_all <;> (split <;> simp_all)

/-- The transitions follow the graph and run the given callbacks. -/
def Table (T : List Trans) (cbs : String → List Cb) : Prop :=
  (∀ x s s', next s x = some s' → ∃ t, look T x s = some t ∧ t.dest = s' ∧ t.prepare.toList ++ [t.before] = cbs x) ∧
  ∀ x s, next s x = none → look T x s = none

theorem table_check : Table transitionsCheck checkCallbacks := by
  refine ⟨fun x s s' h => ?_, fun x s h => ?_⟩
  · rw [look_check]
    unfold next at h
    split at h <;> first | (simp at h; subst h; exact ⟨_, rfl, rfl, rfl⟩) | simp at h
  · rw [look_check]
    unfold next at h
    split at h <;> first | rfl | simp at h

theorem table_run : Table transitionsRun runCallbacksOf := by
  refine ⟨fun x s s' h => ?_, fun x s h => ?_⟩
  · rw [look_run]
    unfold next at h
    split at h <;> first | (simp at h; subst h; exact ⟨_, rfl, rfl, rfl⟩) | simp at h
  · rw [look_run]
    unfold next at h
    split at h <;> first | rfl | simp at h

theorem table_like {T U : List Trans} {cbs : String → List Cb} (h : Like T U) (hU : Table U cbs) : Table T cbs :=
  ⟨fun x s s' e => by rw [h.1]; exact hU.1 x s s' e, fun x s e => by rw [h.1]; exact hU.2 x s e⟩

variable {D P : Type}

theorem runCallbacks_append (exec : Exec D P) (cfg : Pipeline P) (l l' : List (Cb × String)) (d : D) :
    runCallbacks exec cfg (l ++ l') d =
      match runCallbacks exec cfg l d with
      | (d', some e) => (d', some e)
      | (d', none) => runCallbacks exec cfg l' d' := by
  induction l generalizing d with
  | nil => rfl
  | cons x l ih =>
    obtain ⟨cb, s⟩ := x
    simp only [List.cons_append, runCallbacks]
    rcases exec cb cfg s d with ⟨d', _ | e⟩
    · exact ih d'
    · rfl

theorem look_some_mem {T : List Trans} {x : String} {s : St} {t : Trans} (h : look T x s = some t) :
    T.all (fun t => decide (t.trigger ≠ x)) = false := by
  unfold look at h
  have h1 := List.find?_some h
  have h2 := List.mem_of_find?_eq_some h
  simp only [Bool.and_eq_true, decide_eq_true_eq] at h1
  rw [Bool.eq_false_iff]
  intro hall
  rw [List.all_eq_true] at hall
  have := hall t h2
  simp only [decide_eq_true_eq] at this
  exact this h1.1

/-- A trigger along the graph runs the callbacks of the step, then moves. -/
theorem trigger_ok (exec : Exec D P) (cfg : Pipeline P) (x inp : String) (m : Mach D) (cbs : String → List Cb)
    (hT : Table m.transitions cbs) {s' : St} (h : next m.state x = some s') :
    trigger exec cfg x inp m =
      match runCallbacks exec cfg ((cbs x).map fun cb => (cb, inp)) m.data with
      | (d, some e) => ({ m with data := d }, some e)
      | (d, none) => ({ m with data := d, state := s' }, none) := by
  obtain ⟨t, ht, hd, hc⟩ := hT.1 x m.state s' h
  unfold trigger
  rw [look_some_mem ht]
  unfold look at ht
  simp only [Bool.false_eq_true, if_false, ht]
  rw [← hc, ← hd]
  cases hp : t.prepare with
  | none =>
    simp only [Option.toList_none, List.nil_append, List.map_cons, List.map_nil, runCallbacks]
    rcases exec t.before cfg inp m.data with ⟨d, _ | e⟩ <;> rfl
  | some cb =>
    simp only [Option.toList_some, List.cons_append, List.nil_append, List.map_cons, List.map_nil, runCallbacks]
    rcases exec cb cfg inp m.data with ⟨d, _ | e⟩
    · simp only
      rcases exec t.before cfg inp d with ⟨d', _ | e⟩ <;> rfl
    · rfl

/-- A trigger outside the graph raises and changes nothing. -/
theorem trigger_error (exec : Exec D P) (cfg : Pipeline P) (x inp : String) (m : Mach D) (cbs : String → List Cb)
    (hT : Table m.transitions cbs) (h : next m.state x = none) :
    trigger exec cfg x inp m = (m, some .attributeError) ∨ trigger exec cfg x inp m = (m, some .machineError) := by
  have hl := hT.2 x m.state h
  unfold trigger
  unfold look at hl
  rw [hl]
  split
  · exact Or.inl rfl
  · exact Or.inr rfl

theorem loop_path (exec : Exec D P) (cfg : Pipeline P) (nm : String → String) (cbs : String → List Cb) (l : List String) :
    ∀ (m : Mach D) (s' : St), Table m.transitions cbs → path m.state (l.map nm) = some s' →
      let res := runCallbacks exec cfg (l.flatMap fun s => (cbs (nm s)).map fun cb => (cb, s)) m.data
      let out := loop (fun s => trigger exec cfg (nm s) s) l m
      out.2 = res.2 ∧ out.1.data = res.1 ∧ out.1.transitions = m.transitions ∧ (res.2 = none → out.1.state = s') := by
  induction l with
  | nil =>
    intro m s' _ hp
    simp only [List.map_nil, path, Option.some.injEq] at hp
    exact ⟨rfl, rfl, rfl, fun _ => hp⟩
  | cons x l ih =>
    intro m s' hT hp
    simp only [List.map_cons, path] at hp
    cases hn : next m.state (nm x) with
    | none => rw [hn] at hp; simp at hp
    | some s1 =>
      rw [hn] at hp
      simp only at hp
      simp only [List.flatMap_cons, loop]
      rw [runCallbacks_append, trigger_ok exec cfg (nm x) x m cbs hT hn]
      rcases runCallbacks exec cfg (List.map (fun cb => (cb, x)) (cbs (nm x))) m.data with ⟨d, _ | e⟩
      · simp only
        exact ih { m with data := d, state := s1 } s' hT hp
      · simp only
        simp

theorem loop_no_path (exec : Exec D P) (cfg : Pipeline P) (nm : String → String) (cbs : String → List Cb) (l : List String) :
    ∀ (m : Mach D), Table m.transitions cbs → path m.state (l.map nm) = none →
      (loop (fun s => trigger exec cfg (nm s) s) l m).2 ≠ none := by
  induction l with
  | nil => intro m _ hp; simp [path] at hp
  | cons x l ih =>
    intro m hT hp
    simp only [List.map_cons, path] at hp
    simp only [loop]
    cases hn : next m.state (nm x) with
    | none =>
      rcases trigger_error exec cfg (nm x) x m cbs hT hn with h | h <;> rw [h] <;> simp
    | some s1 =>
      rw [hn] at hp
      simp only at hp
      rw [trigger_ok exec cfg (nm x) x m cbs hT hn]
      rcases runCallbacks exec cfg (List.map (fun cb => (cb, x)) (cbs (nm x))) m.data with ⟨d, _ | e⟩
      · simp only
        exact ih { m with data := d, state := s1 } hT hp
      · simp

/-! ### Well-formed pipelines are the paths -/

theorem path_refinements (n : Nat) : path .dispMaps (List.replicate n "refinement") = some .dispMaps := by
  induction n with
  | zero => rfl
  | succ n ih => rw [List.replicate_succ]; simp only [path, next]; exact ih

theorem path_prefix {s : St} {l l' : List String} (h : l <+: l') (hp : (path s l').isSome = true) :
    (path s l).isSome = true := by
  induction l generalizing s l' with
  | nil => rfl
  | cons x l ih =>
    obtain ⟨t, rfl⟩ := h
    simp only [List.cons_append, path] at hp ⊢
    cases hn : next s x with
    | none => rw [hn] at hp; simp at hp
    | some s1 =>
      rw [hn] at hp
      exact ih ⟨t, rfl⟩ hp

theorem next_dispMaps {x : String} {s : St} (h : next .dispMaps x = some s) : x = "refinement" ∧ s = .dispMaps := by
  unfold next at h
  split at h <;> simp_all

theorem path_dispMaps {l : List String} (h : (path .dispMaps l).isSome = true) :
    l = List.replicate l.length "refinement" := by
  induction l with
  | nil => rfl
  | cons x l ih =>
    simp only [path] at h
    cases hn : next .dispMaps x with
    | none => rw [hn] at h; simp at h
    | some s =>
      rw [hn] at h
      obtain ⟨rfl, rfl⟩ := next_dispMaps hn
      rw [List.length_cons, List.replicate_succ, ← ih h]

theorem path_costVolumes {l : List String} (h : (path .costVolumes l).isSome = true) :
    l = [] ∨ ∃ n, l = "disparity" :: List.replicate n "refinement" := by
  cases l with
  | nil => exact Or.inl rfl
  | cons x l =>
    right
    simp only [path] at h
    cases hn : next .costVolumes x with
    | none => rw [hn] at h; simp at h
    | some s =>
      rw [hn] at h
      unfold next at hn
      split at hn <;> simp_all
      subst hn
      exact ⟨_, path_dispMaps h⟩

theorem path_assumption {l : List String} (h : (path .assumption l).isSome = true) :
    l = [] ∨ l = ["matching_cost"] ∨ ∃ n, l = "matching_cost" :: "disparity" :: List.replicate n "refinement" := by
  cases l with
  | nil => exact Or.inl rfl
  | cons x l =>
    right
    simp only [path] at h
    cases hn : next .assumption x with
    | none => rw [hn] at h; simp at h
    | some s =>
      rw [hn] at h
      unfold next at hn
      split at hn <;> simp_all
      subst hn
      rcases path_costVolumes h with rfl | ⟨n, rfl⟩
      · left; rfl
      · right; exact ⟨n, rfl⟩

theorem next_begin {x : String} {s : St} (h : next .begin x = some s) :
    (x = "estimation" ∧ s = .assumption) ∨ (x = "matching_cost" ∧ s = .costVolumes) := by
  unfold next at h
  split at h <;> simp_all

theorem wellFormed_iff (l : List String) : WellFormed l ↔ (path .begin l).isSome = true := by
  constructor
  · rintro ⟨e, n, h⟩
    apply path_prefix h
    cases e <;> simp only [Bool.false_eq_true, if_false, if_true, List.nil_append, List.cons_append, path, next] <;>
      rw [path_refinements] <;> rfl
  · intro h
    have key : ∀ l', (l' = [] ∨ l' = ["matching_cost"] ∨ ∃ n, l' = "matching_cost" :: "disparity" :: List.replicate n "refinement") →
        ∀ e : Bool, ∃ n : Nat, (if e then ["estimation"] else []) ++ l' <+:
          (if e then ["estimation"] else []) ++ ["matching_cost", "disparity"] ++ List.replicate n "refinement" := by
      intro l' hl' e
      rcases hl' with rfl | rfl | ⟨n, rfl⟩
      · exact ⟨0, by simp⟩
      · exact ⟨0, ⟨["disparity"], by simp⟩⟩
      · exact ⟨n, ⟨[], by simp⟩⟩
    cases l with
    | nil => exact ⟨false, 0, by simp⟩
    | cons x l =>
      simp only [path] at h
      cases hn : next .begin x with
      | none => rw [hn] at h; simp at h
      | some s =>
        rw [hn] at h
        rcases next_begin hn with ⟨rfl, rfl⟩ | ⟨rfl, rfl⟩
        · obtain ⟨n, hn⟩ := key _ (path_assumption h) true
          exact ⟨true, n, by simpa using hn⟩
        · have : ("matching_cost" :: l) = ["matching_cost"] ∨
              ∃ n, ("matching_cost" :: l) = "matching_cost" :: "disparity" :: List.replicate n "refinement" := by
            rcases path_costVolumes h with rfl | ⟨n, rfl⟩
            · exact Or.inl rfl
            · exact Or.inr ⟨n, rfl⟩
          obtain ⟨n, hn⟩ := key _ (Or.inr this) false
          exact ⟨false, n, by simpa using hn⟩

end Verif.Machine
