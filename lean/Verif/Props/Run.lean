import Verif.Spec.Run
import Verif.Props.Machine
import Verif.Props.Disparity
import Verif.Props.Estimation
import Verif.Props.OwnRange

/-!
# Properties C70 and C71: whole runs
-/

namespace Verif.Props

open Verif Verif.Machine Verif.Filters Verif.ImgTools Verif.MatchingCost Verif.Disparity Verif.Estimation Verif.Run Verif.Spec

set_option linter.unusedSectionVars false

variable {K : Type} [Field K] [LinearOrder K] [IsStrictOrderedRing K] [FloorRing K]

theorem runPlan_append (l l' : List String) : runPlan (l ++ l') = runPlan l ++ runPlan l' := by
  simp [runPlan, List.flatMap_append]

theorem runPlan_refinements (l : List (String × StepCfg K)) (h : ∀ q ∈ l, stepOf q.1 = "refinement") :
    runPlan (l.map Prod.fst) = l.map fun q => (Cb.refinementRun, q.1) := by
  induction l with
  | nil => rfl
  | cons q l ih =>
    have hq := h q (by simp)
    have := ih fun x hx => h x (by simp [hx])
    simp only [runPlan, List.map_cons, List.flatMap_cons] at this ⊢
    rw [this, hq]
    rfl

theorem lookup_cons_ne {P : Type} {k s : String} {v : P} {l : Pipeline P} (h : k ≠ s) : lookup ((k, v) :: l) s = lookup l s := by
  simp [lookup, List.find?, h]

theorem lookup_cons_eq {P : Type} {k : String} {v : P} {l : Pipeline P} : lookup ((k, v) :: l) k = .ok v := by
  simp [lookup, List.find?]

theorem lookup_mem {P : Type} (l : Pipeline P) (h : (l.map Prod.fst).Nodup) (q : String × P) (hq : q ∈ l) :
    lookup l q.1 = .ok q.2 := by
  induction l with
  | nil => simp at hq
  | cons x l ih =>
    rw [List.map_cons, List.nodup_cons] at h
    rcases List.mem_cons.1 hq with rfl | hm
    · exact lookup_cons_eq
    · have : x.1 ≠ q.1 := fun hx => h.1 (by rw [hx]; exact List.mem_map_of_mem hm)
      obtain ⟨a, b⟩ := x
      rw [lookup_cons_ne this]
      exact ih h.2 hm

/-- What the steps of a named plan find in the configuration. -/
theorem Plan.lookups (p : Plan K) (hn : p.Named) :
    lookup p.toPipeline "matching_cost" = .ok (.matchingCost p.cfg p.offset p.cost) ∧
    lookup p.toPipeline "disparity" = .ok (.disparity p.invalid) ∧
    (∀ q ∈ p.refinements, lookup p.toPipeline q.1 = .ok q.2) ∧
    ∀ a b s, p.estimation = some (a, b, s) → lookup p.toPipeline "estimation" = .ok (.estimation a b s) := by
  have hb : ∀ q ∈ p.refinements, "matching_cost" ≠ q.1 ∧ "disparity" ≠ q.1 ∧ "estimation" ≠ q.1 := by
    intro q hq
    have := hn.1 q hq
    refine ⟨?_, ?_, ?_⟩ <;> intro h <;> rw [← h] at this <;> revert this <;> decide
  rcases he : p.estimation with _ | ⟨a, b, s⟩
  · simp only [Spec.Plan.toPipeline, he, List.nil_append, List.cons_append]
    refine ⟨lookup_cons_eq, ?_, ?_, by simp⟩
    · rw [lookup_cons_ne (by decide)]; exact lookup_cons_eq
    · intro q hq
      obtain ⟨h1, h2, -⟩ := hb q hq
      rw [lookup_cons_ne h1, lookup_cons_ne h2]
      exact lookup_mem _ hn.2 q hq
  · simp only [Spec.Plan.toPipeline, he, List.cons_append, List.nil_append]
    refine ⟨?_, ?_, ?_, ?_⟩
    · rw [lookup_cons_ne (by decide)]; exact lookup_cons_eq
    · rw [lookup_cons_ne (by decide), lookup_cons_ne (by decide)]; exact lookup_cons_eq
    · intro q hq
      obtain ⟨h1, h2, h3⟩ := hb q hq
      rw [lookup_cons_ne h3, lookup_cons_ne h1, lookup_cons_ne h2]
      exact lookup_mem _ hn.2 q hq
    · intro a' b' s' h
      simp only [Option.some.injEq, Prod.mk.injEq] at h
      obtain ⟨rfl, rfl, rfl⟩ := h
      exact lookup_cons_eq

/-- The names of a named plan are accepted by the machine. -/
theorem Plan.wellFormed (p : Plan K) (hn : p.Named) : WellFormed ((p.toPipeline.map Prod.fst).map stepOf) := by
  have hr : (p.refinements.map Prod.fst).map stepOf = List.replicate p.refinements.length "refinement" := by
    rw [List.eq_replicate_iff]
    refine ⟨by simp, ?_⟩
    intro b hb
    simp only [List.mem_map] at hb
    obtain ⟨_, ⟨q, hq, rfl⟩, rfl⟩ := hb
    exact hn.1 q hq
  rcases he : p.estimation with _ | ⟨a, b, s⟩
  · refine ⟨false, p.refinements.length, ?_⟩
    simp only [Spec.Plan.toPipeline, he, List.nil_append, List.map_append, hr]
    have : List.map stepOf (List.map Prod.fst [("matching_cost", StepCfg.matchingCost p.cfg p.offset p.cost),
      ("disparity", StepCfg.disparity p.invalid)]) = ["matching_cost", "disparity"] := by
      show [stepOf "matching_cost", stepOf "disparity"] = _
      decide
    rw [this]
    exact List.prefix_refl _
  · refine ⟨true, p.refinements.length, ?_⟩
    simp only [Spec.Plan.toPipeline, he, List.map_append, hr]
    have : List.map stepOf (List.map Prod.fst [("matching_cost", StepCfg.matchingCost p.cfg p.offset p.cost),
      ("disparity", StepCfg.disparity p.invalid)]) = ["matching_cost", "disparity"] := by
      show [stepOf "matching_cost", stepOf "disparity"] = _
      decide
    rw [this]
    have : List.map stepOf (List.map Prod.fst [("estimation", (StepCfg.estimation a b s : StepCfg K))]) = ["estimation"] := by
      show [stepOf "estimation"] = _
      decide
    rw [this]
    exact List.prefix_refl _

/-- The dataset of maps on the grid of the volumes. -/
def onGrid (p : Plan K) (cv : CostVolumes K) (m : Maps K) : MapsData K := ⟨cv.row, cv.col, m.row, m.col, m.score, p.invalid⟩

/-- One refinement of the machine is one refinement of the specification. -/
theorem refine_eq (e : Env K) (p : Plan K) (left : Left K) (right : Img K) (cv : CostVolumes K) (m : Maps K) (c : StepCfg K) :
    refine e c left right ⟨cv, p.offset, p.cfg.stepRow, p.cfg.stepCol⟩ (onGrid p cv m) =
      (refined e p left right cv m c).bind fun o =>
        if o.row.h = cv.row.n ∧ o.row.w = cv.col.n ∧ o.col.h = cv.row.n ∧ o.col.w = cv.col.n ∧ o.score.h = cv.row.n ∧
          o.score.w = cv.col.n then .ok (onGrid p cv o) else .error .valueError := by
  have as : ∀ (m : Maps K) row col score, assign (onGrid p cv m) row col score =
      if row.h = cv.row.n ∧ row.w = cv.col.n ∧ col.h = cv.row.n ∧ col.w = cv.col.n ∧ score.h = cv.row.n ∧ score.w = cv.col.n
      then .ok (onGrid p cv ⟨row, col, score⟩) else .error .valueError := by
    intro m row col score
    unfold assign sameSize onGrid
    simp only [Bool.and_eq_true, decide_eq_true_eq, and_assoc]
  cases c with
  | dichotomy f n =>
    simp only [refine, refined, onGrid, bind, Except.bind, pure, Except.pure]
    cases h : Dichotomy.refinementMethod f n cv p.invalid m.row m.col _ with
    | error x => rfl
    | ok o => exact as m _ _ _
  | opticalFlow c =>
    simp only [refine, refined, onGrid, bind, Except.bind, pure, Except.pure]
    cases h : OpticalFlow.refinementMethod e.flow e.junk c _ p.invalid m.row m.col left.img right left.rowDisp left.colDisp with
    | error x => rfl
    | ok o => exact as m _ _ _
  | interpolation =>
    simp only [refine, refined, onGrid, bind, Except.bind, pure, Except.pure]
    cases h : Interpolation.refinementMethod e.interp cv m.row m.col with
    | error x => rfl
    | ok o => exact as m _ _ _
  | _ => rfl

/-- All the refinements. -/
theorem run_refinements (e : Env K) (roi : Option Roi) (p : Plan K) (left : Left K) (right : Img K) (cv : CostVolumes K)
    (cfg : Pipeline (StepCfg K)) (l : List (String × StepCfg K)) : ∀ (m : Maps K) (d : Attrs K),
    (∀ q ∈ l, lookup cfg q.1 = .ok q.2) → d.left = some left → d.right = some right →
    d.volumes = some ⟨cv, p.offset, p.cfg.stepRow, p.cfg.stepCol⟩ → d.maps = some (onGrid p cv m) →
    match refinedAll e p left right cv (l.map Prod.snd) m with
    | .ok m' => runCallbacks (runExec e roi) cfg (l.map fun q => (Cb.refinementRun, q.1)) d =
        ({ d with maps := some (onGrid p cv m') }, none)
    | .error x => (runCallbacks (runExec e roi) cfg (l.map fun q => (Cb.refinementRun, q.1)) d).2 = some x := by
  induction l with
  | nil =>
    intro m d _ _ _ _ hm
    simp only [List.map_nil, refinedAll, runCallbacks, ← hm]
  | cons q l ih =>
    intro m d hq hl hr hv hm
    obtain ⟨dl, dr, dmc, dv, dm, dg⟩ := d
    simp only at hl hr hv hm
    subst hl hr hv hm
    have hq1 := hq q (by simp)
    simp only [List.map_cons, refinedAll, runCallbacks, runExec, hq1, refine_eq]
    cases ho : refined e p left right cv m q.2 with
    | error x => simp [Except.bind, bind]
    | ok o =>
      simp only [Except.bind, bind]
      by_cases hs : o.row.h = cv.row.n ∧ o.row.w = cv.col.n ∧ o.col.h = cv.row.n ∧ o.col.w = cv.col.n ∧ o.score.h = cv.row.n ∧
          o.score.w = cv.col.n
      · simp only [if_pos hs]
        have := ih o ⟨_, _, dmc, _, some (onGrid p cv o), dg⟩ (fun x hx => hq x (by simp [hx])) rfl rfl rfl rfl
        exact this
      · simp only [if_neg hs]

/-- The estimation of the machine is that of the specification. -/
theorem estimate_eq (e : Env K) (p : Plan K) (left : Left K) (right : Img K) (a b : Int) (s : Nat)
    (h : p.estimation = some (a, b, s)) : estimate e a b s left right = searched e p left right := by
  unfold estimate searched
  rw [h]
  simp only
  rcases e.correlation left.img right s with ⟨x, y⟩
  cases x <;> cases y <;>
    simp [computeEstimation, roundF, negF, bind, Except.bind, pure, Except.pure, getMinMax, sgn]

/-- The callbacks of a plan on the attributes. -/
theorem callbacks_eq (e : Env K) (roi : Option Roi) (left : Left K) (right : Img K) (p : Plan K) (hn : p.Named) (d : Attrs K) :
    match expectedMaps e roi d.margins left right p with
    | .ok m => (runCallbacks (runExec e roi) p.toPipeline (runPlan (p.toPipeline.map Prod.fst)) (prepare left right d)).2 = none ∧
        (runCallbacks (runExec e roi) p.toPipeline (runPlan (p.toPipeline.map Prod.fst)) (prepare left right d)).1.maps = some m ∧
        (runCallbacks (runExec e roi) p.toPipeline (runPlan (p.toPipeline.map Prod.fst)) (prepare left right d)).1.margins = d.margins
    | .error x =>
      (runCallbacks (runExec e roi) p.toPipeline (runPlan (p.toPipeline.map Prod.fst)) (prepare left right d)).2 = some x := by
  obtain ⟨k1, k2, k3, k4⟩ := Plan.lookups p hn
  -- the part after the estimation
  have main : ∀ (l : Left K) (d : Attrs K), d.left = some l → d.right = some right →
      match (do
        let cv ← computeCostVolumes e.zoom p.cost p.cfg roi l right d.margins
        let out ← computeDispMaps p.invalid cv
        let m ← refinedAll e p l right cv (p.refinements.map Prod.snd) ⟨out.row, out.col, out.score⟩
        return onGrid p cv m : Except Err (MapsData K)) with
      | .ok m =>
        (runCallbacks (runExec e roi) p.toPipeline (runPlan (["matching_cost", "disparity"] ++ p.refinements.map Prod.fst)) d).2 = none ∧
        (runCallbacks (runExec e roi) p.toPipeline (runPlan (["matching_cost", "disparity"] ++ p.refinements.map Prod.fst)) d).1.maps =
          some m ∧
        (runCallbacks (runExec e roi) p.toPipeline (runPlan (["matching_cost", "disparity"] ++ p.refinements.map Prod.fst)) d).1.margins =
          d.margins
      | .error x =>
        (runCallbacks (runExec e roi) p.toPipeline (runPlan (["matching_cost", "disparity"] ++ p.refinements.map Prod.fst)) d).2 =
          some x := by
    intro l d hl hr
    obtain ⟨dl, dr, dmc, dv, dm, dg⟩ := d
    simp only at hl hr
    subst hl hr
    have hplan : runPlan (["matching_cost", "disparity"] ++ p.refinements.map Prod.fst) =
        (Cb.matchingCostPrepare, "matching_cost") :: (Cb.matchingCostRun, "matching_cost") :: (Cb.dispMapsRun, "disparity") ::
          p.refinements.map fun q => (Cb.refinementRun, q.1) := by
      rw [runPlan_append, runPlan_refinements _ hn.1]
      have : runPlan ["matching_cost", "disparity"] =
        [(Cb.matchingCostPrepare, "matching_cost"), (Cb.matchingCostRun, "matching_cost"), (Cb.dispMapsRun, "disparity")] := by decide
      rw [this]
      rfl
    rw [hplan]
    simp only [runCallbacks, runExec, k1, bind, Except.bind]
    cases hcv : computeCostVolumes e.zoom p.cost p.cfg roi l right dg with
    | error x => simp
    | ok cv =>
      simp only [k2, dispMaps, invalidOf, bind, Except.bind, pure, Except.pure]
      cases ho : computeDispMaps p.invalid cv with
      | error x => simp
      | ok out =>
        simp only
        have hcv' : ({ cv with data := out.after } : CostVolumes K) = cv := by
          rw [C07_cost_volumes_unchanged ho]
        have := run_refinements e roi p l right cv p.toPipeline p.refinements ⟨out.row, out.col, out.score⟩
          ⟨_, _, some (p.cfg, p.offset, p.cost), some ⟨{ cv with data := out.after }, p.offset, p.cfg.stepRow, p.cfg.stepCol⟩,
            some (onGrid p cv ⟨out.row, out.col, out.score⟩), dg⟩ k3 rfl rfl (by simp only [hcv']) rfl
        cases hm : refinedAll e p l right cv (p.refinements.map Prod.snd) ⟨out.row, out.col, out.score⟩ with
        | error x =>
          rw [hm] at this
          simp only at this ⊢
          exact this
        | ok m =>
          rw [hm] at this
          simp only at this ⊢
          have h2 := congrArg Prod.snd this
          have h1 := congrArg (fun x => x.1.maps) this
          have h3 := congrArg (fun x => x.1.margins) this
          exact ⟨h2, h1, h3⟩
  rcases he : p.estimation with _ | ⟨a, b, s⟩
  · have hnames : p.toPipeline.map Prod.fst = ["matching_cost", "disparity"] ++ p.refinements.map Prod.fst := by
      simp [Spec.Plan.toPipeline, he]
    rw [hnames]
    have := main left (prepare left right d) rfl rfl
    unfold expectedMaps
    simp only [searched, he, bind, Except.bind]
    exact this
  · have hnames : p.toPipeline.map Prod.fst = "estimation" :: (["matching_cost", "disparity"] ++ p.refinements.map Prod.fst) := by
      simp [Spec.Plan.toPipeline, he]
    rw [hnames]
    have hplan : runPlan ("estimation" :: (["matching_cost", "disparity"] ++ p.refinements.map Prod.fst)) =
        (Cb.estimationRun, "estimation") :: runPlan (["matching_cost", "disparity"] ++ p.refinements.map Prod.fst) := by
      rw [← List.singleton_append, runPlan_append]
      have : runPlan ["estimation"] = [(Cb.estimationRun, "estimation")] := by decide
      rw [this]
      rfl
    rw [hplan]
    unfold expectedMaps
    simp only [runCallbacks, runExec, k4 a b s he, prepare, estimate_eq e p left right a b s he, bind, Except.bind]
    cases hs : searched e p left right with
    | error x => simp
    | ok l =>
      have := main l { prepare left right d with left := some l } rfl rfl
      exact this

/-- C70: for every complete pipeline (with or without estimation, any number of refinements of any kind and any suffixes), all images,
all configurations of the steps, on a new machine: the run gives the maps of the composition of the steps in order, or the exception
of the first step which raises; when it succeeds the machine is back in its initial state. -/
theorem C70_run_composes (e : Env K) (roi : Option Roi) (left : Left K) (right : Img K) (p : Plan K) (hn : p.Named) (d : Attrs K) :
    (run e roi left right p.toPipeline (fresh d)).2 = (expectedMaps e roi d.margins left right p).map some ∧
    (∀ m, expectedMaps e roi d.margins left right p = .ok m →
      ∃ d', (run e roi left right p.toPipeline (fresh d)).1 = fresh d' ∧ d'.maps = some m ∧ d'.margins = d.margins) := by
  obtain ⟨h1, h2, h3⟩ := run_from_begin (runExec e roi) (prepare left right) p.toPipeline d
  obtain ⟨h3, h4⟩ := h3 (Plan.wellFormed p hn)
  have hc := callbacks_eq e roi left right p hn d
  cases he : expectedMaps e roi d.margins left right p with
  | error x =>
    rw [he] at hc
    simp only at hc
    rw [hc] at h3
    refine ⟨?_, by simp⟩
    unfold Run.run
    rcases hr : runAll (runExec e roi) (prepare left right) p.toPipeline (fresh d) with ⟨m', _ | y⟩
    · rw [hr] at h3; simp at h3
    · rw [hr] at h3
      simp only [Option.some.injEq] at h3
      subst h3
      rfl
  | ok m =>
    rw [he] at hc
    simp only at hc
    obtain ⟨c1, c2, c3⟩ := hc
    rw [c1] at h3
    have hf := h2 h3
    unfold Run.run
    rcases hr : runAll (runExec e roi) (prepare left right) p.toPipeline (fresh d) with ⟨m', _ | y⟩
    · rw [hr] at hf
      simp only at hf
      simp only [hf, Except.map]
      refine ⟨?_, ?_⟩
      · exact congrArg Except.ok c2
      · intro m'' hm
        simp only [Except.ok.injEq] at hm
        subst hm
        exact ⟨_, rfl, c2, c3⟩
    · rw [hr] at h3; simp at h3

/-! ## History of the machine -/

/-- The attributes which matter in a state. -/
def Sim (s : St) (d d' : Attrs K) : Prop :=
  d.left = d'.left ∧ d.right = d'.right ∧ d.margins = d'.margins ∧ (s = .costVolumes ∨ s = .dispMaps → d.volumes = d'.volumes) ∧
    (s = .dispMaps → d.maps = d'.maps)

/-- A step does the same from attributes which agree. -/
theorem step_sim (e : Env K) (roi : Option Roi) (cfg : Pipeline (StepCfg K)) (s s' : St) (x inp : String) (d d' : Attrs K)
    (hn : next s x = some s') (h : Sim s d d') :
    (runCallbacks (runExec e roi) cfg ((runCallbacksOf x).map fun cb => (cb, inp)) d).2 =
      (runCallbacks (runExec e roi) cfg ((runCallbacksOf x).map fun cb => (cb, inp)) d').2 ∧
    ((runCallbacks (runExec e roi) cfg ((runCallbacksOf x).map fun cb => (cb, inp)) d).2 = none →
      Sim s' (runCallbacks (runExec e roi) cfg ((runCallbacksOf x).map fun cb => (cb, inp)) d).1
        (runCallbacks (runExec e roi) cfg ((runCallbacksOf x).map fun cb => (cb, inp)) d').1) := by
  obtain ⟨l, r, c, v, mp, g⟩ := d
  obtain ⟨l', r', c', v', mp', g'⟩ := d'
  obtain ⟨rfl, rfl, rfl, hv, hm⟩ := h
  simp only at hv hm
  unfold next at hn
  have mc : ∀ {a : St}, a = .begin ∨ a = .assumption →
      (runCallbacks (runExec e roi) cfg ((runCallbacksOf "matching_cost").map fun cb => (cb, inp)) ⟨l, r, c, v, mp, g⟩).2 =
        (runCallbacks (runExec e roi) cfg ((runCallbacksOf "matching_cost").map fun cb => (cb, inp)) ⟨l, r, c', v', mp', g⟩).2 ∧
      ((runCallbacks (runExec e roi) cfg ((runCallbacksOf "matching_cost").map fun cb => (cb, inp)) ⟨l, r, c, v, mp, g⟩).2 = none →
        Sim .costVolumes
          (runCallbacks (runExec e roi) cfg ((runCallbacksOf "matching_cost").map fun cb => (cb, inp)) ⟨l, r, c, v, mp, g⟩).1
          (runCallbacks (runExec e roi) cfg ((runCallbacksOf "matching_cost").map fun cb => (cb, inp)) ⟨l, r, c', v', mp', g⟩).1) := by
    intro a _
    simp only [runCallbacksOf, List.map_cons, List.map_nil, runCallbacks, runExec]
    rcases lookup cfg inp with x | (_ | _ | _ | _ | _ | _) <;> try simp
    rename_i cf o pc
    rcases l with _ | l <;> rcases r with _ | r <;> try simp
    rcases computeCostVolumes e.zoom pc cf roi l r g with x | cv
    · simp
    · simp [Sim]
  split at hn <;> try simp at hn
  · -- estimation
    subst hn
    simp only [runCallbacksOf, List.map_cons, List.map_nil, runCallbacks, runExec]
    rcases lookup cfg inp with x | (⟨a, b, f⟩ | _ | _ | _ | _ | _) <;> try simp
    rcases l with _ | l <;> rcases r with _ | r <;> try simp
    rcases estimate e a b f l r with x | l'
    · simp
    · simp only
      rcases lookup cfg "estimation" with x | y
      · simp
      · simp [Sim]
  · subst hn
    exact mc (Or.inl rfl)
  · subst hn
    exact mc (Or.inr rfl)
  · subst hn
    have hv := hv (Or.inl rfl)
    subst hv
    simp only [runCallbacksOf, List.map_cons, List.map_nil, runCallbacks, runExec]
    rcases lookup cfg inp with x | (_ | _ | iv | _ | _ | _) <;> try simp
    rcases v with _ | v <;> try simp
    rcases dispMaps cfg iv v with x | ⟨m, w⟩
    · simp
    · simp [Sim]
  · subst hn
    have hv := hv (Or.inr rfl)
    have hm := hm rfl
    subst hv hm
    simp only [runCallbacksOf, List.map_cons, List.map_nil, runCallbacks, runExec]
    rcases lookup cfg inp with x | cc <;> try simp
    rcases l with _ | l <;> rcases r with _ | r <;> rcases v with _ | v <;> rcases mp with _ | m <;> try simp
    rcases refine e cc l r v m with x | m'
    · simp
    · simp [Sim]

/-- The loop does the same from attributes which agree. -/
theorem loop_sim (e : Env K) (roi : Option Roi) (cfg : Pipeline (StepCfg K)) (l : List String) : ∀ (m m' : Mach (Attrs K)),
    m.state = m'.state → m.transitions = transitionsRun → m'.transitions = transitionsRun → Sim m.state m.data m'.data →
    (loop (runStep (runExec e roi) cfg) l m).2 = (loop (runStep (runExec e roi) cfg) l m').2 ∧
    ((loop (runStep (runExec e roi) cfg) l m).2 = none →
      path m.state (l.map stepOf) = some (loop (runStep (runExec e roi) cfg) l m).1.state ∧
      Sim (loop (runStep (runExec e roi) cfg) l m).1.state (loop (runStep (runExec e roi) cfg) l m).1.data
        (loop (runStep (runExec e roi) cfg) l m').1.data) := by
  induction l with
  | nil =>
    intro m m' _ _ _ h
    exact ⟨rfl, fun _ => ⟨rfl, h⟩⟩
  | cons x l ih =>
    intro m m' hs ht ht' h
    have hT : Table m.transitions runCallbacksOf := by rw [ht]; exact table_run
    have hT' : Table m'.transitions runCallbacksOf := by rw [ht']; exact table_run
    simp only [loop]
    cases hn : next m.state (stepOf x) with
    | none =>
      have hl := hT.2 _ _ hn
      have hl' := hT'.2 _ _ (by rw [← hs]; exact hn : next m'.state (stepOf x) = none)
      unfold look at hl hl'
      have e1 : runStep (runExec e roi) cfg x m = (m, some (if m.transitions.all (fun t => decide (t.trigger ≠ stepOf x))
          then .attributeError else .machineError)) := by
        unfold runStep trigger
        rw [baseName_eq, hl]
        split <;> rfl
      have e2 : runStep (runExec e roi) cfg x m' = (m', some (if m'.transitions.all (fun t => decide (t.trigger ≠ stepOf x))
          then .attributeError else .machineError)) := by
        unfold runStep trigger
        rw [baseName_eq, hl']
        split <;> rfl
      rw [e1, e2, ht, ht']
      simp
    | some s1 =>
      have hn' : next m'.state (stepOf x) = some s1 := by rw [← hs]; exact hn
      obtain ⟨h1, h2⟩ := step_sim e roi cfg m.state s1 (stepOf x) x m.data m'.data hn h
      unfold runStep
      rw [baseName_eq, trigger_ok _ cfg (stepOf x) x m runCallbacksOf hT hn, trigger_ok _ cfg (stepOf x) x m' runCallbacksOf hT' hn']
      rcases ha : runCallbacks (runExec e roi) cfg (List.map (fun cb => (cb, x)) (runCallbacksOf (stepOf x))) m.data with ⟨d1, _ | y⟩
      · rcases hb : runCallbacks (runExec e roi) cfg (List.map (fun cb => (cb, x)) (runCallbacksOf (stepOf x))) m'.data with
          ⟨d2, _ | y⟩
        · rw [ha, hb] at h2
          simp only at h2
          have := ih { m with data := d1, state := s1 } { m' with data := d2, state := s1 } rfl ht ht' (h2 trivial)
          simp only [List.map_cons, path, hn]
          unfold runStep at this
          rw [baseName_eq] at this
          exact this
        · rw [ha, hb] at h1; simp at h1
      · rcases hb : runCallbacks (runExec e roi) cfg (List.map (fun cb => (cb, x)) (runCallbacksOf (stepOf x))) m'.data with
          ⟨d2, _ | y'⟩
        · rw [ha, hb] at h1; simp at h1
        · rw [ha, hb] at h1
          simp only at h1
          simp [h1]

theorem path_end {l : List String} : ∀ {s s' : St}, path s l = some s' → s = .dispMaps ∨ "disparity" ∈ l → s' = .dispMaps := by
  induction l with
  | nil =>
    intro s s' h h'
    simp only [path, Option.some.injEq] at h
    rcases h' with h' | h'
    · rw [← h, h']
    · simp at h'
  | cons x l ih =>
    intro s s' h h'
    simp only [path] at h
    cases hn : next s x with
    | none => rw [hn] at h; simp at h
    | some s1 =>
      rw [hn] at h
      simp only at h
      refine ih h ?_
      rcases h' with rfl | h'
      · exact Or.inl (next_dispMaps hn).2
      · rcases List.mem_cons.1 h' with rfl | h'
        · left
          cases s <;> simp [next] at hn
          exact hn.symm
        · exact Or.inr h'

/-- C71: for every pipeline with a disparity step, accepted or not, a machine which already has been used (and is back in its initial
state, C31) gives the same result as a new one, the same maps or the same exception. -/
theorem C71_history_independent_partial (e : Env K) (roi : Option Roi) (left : Left K) (right : Img K) (cfg : Pipeline (StepCfg K))
    (d d' : Attrs K) (hm : d.margins = d'.margins) (hd : "disparity" ∈ (cfg.map Prod.fst).map stepOf) :
    (run e roi left right cfg (fresh d)).2 = (run e roi left right cfg (fresh d')).2 := by
  have := loop_sim e roi cfg (cfg.map Prod.fst)
    { (fresh d : Mach (Attrs K)) with data := prepare left right d, transitions := transitionsRun }
    { (fresh d' : Mach (Attrs K)) with data := prepare left right d', transitions := transitionsRun } rfl rfl rfl
    ⟨rfl, rfl, hm, by simp [fresh], by simp [fresh]⟩
  obtain ⟨h1, h2⟩ := this
  unfold Run.run runAll
  simp only [fresh, List.nil_append] at h1 h2 ⊢
  rcases ha : loop (runStep (runExec e roi) cfg) (List.map Prod.fst cfg) ⟨St.begin, transitionsRun, prepare left right d⟩ with ⟨m1, _ | y⟩
  · rw [ha] at h1 h2
    rcases hb : loop (runStep (runExec e roi) cfg) (List.map Prod.fst cfg) ⟨St.begin, transitionsRun, prepare left right d'⟩ with
      ⟨m2, _ | y⟩
    · rw [hb] at h2
      simp only [forall_const] at h2
      obtain ⟨h2, h3⟩ := h2
      have hs := path_end h2 (Or.inr hd)
      simp only [removeTransitions]
      rw [h3.2.2.2.2 hs]
    · rw [hb] at h1; simp at h1
  · rw [ha] at h1
    rcases hb : loop (runStep (runExec e roi) cfg) (List.map Prod.fst cfg) ⟨St.begin, transitionsRun, prepare left right d'⟩ with
      ⟨m2, _ | y'⟩
    · rw [hb] at h1; simp at h1
    · rw [hb] at h1
      simp only [Option.some.injEq] at h1
      subst h1
      rfl

/-! ## Examples -/

/-- External functions for the examples: the correlation finds a shift of (-0.6, 0.2). -/
def exEnv : Env ℚ :=
  ⟨zoomLinear, fun _ _ _ => (.fin (-3 / 5), .fin (1 / 5)), ⟨fun _ _ => none, fun w _ _ => w⟩, fun _ _ => ⟨0, 0, fun _ _ => .nan⟩,
    ⟨fun _ _ _ => .error .valueError, fun _ _ _ => (0, 0)⟩⟩

/-- A plan with an estimation (ranges 1 and 1, smaller than those of the check to keep the example small). -/
def exPlan : Plan ℚ := ⟨some (1, 1, 1), ⟨1, 1, 1, .min⟩, 0, exCost, .fin (-9999), []⟩

/-- Its run on the 5 x 3 pair, the left image having the placeholder ranges: the row disparities are those of the pair, the last row
has no right row at distance 1. -/
example : exPlan.Named ∧
    ((run exEnv none ⟨exLeftImg, exMMRow, exMMRow⟩ exRightImg exPlan.toPipeline (fresh Attrs.init)).2.toOption.bind id).map
      (fun m => (List.range 5).map fun r => m.rowMap.get r 1) = some [.fin 1, .fin 1, .fin 1, .fin 1, .fin 0] := by
  refine ⟨⟨by simp [exPlan], by simp [exPlan]⟩, by decide +kernel⟩

/-- A machine which already ran the plan. -/
def exUsed : Mach (Attrs ℚ) := (run exEnv none exLeft exRightImg exPlan.toPipeline (fresh Attrs.init)).1

/-- C71 is false in general: a pipeline which stops after the matching cost is accepted, and returns (and `main` would save) the maps
of the previous run, whereas a new machine returns an empty dataset. -/
theorem C71_stale_maps_false :
    let short : Pipeline (StepCfg ℚ) := [("matching_cost", .matchingCost ⟨1, 1, 1, .min⟩ 0 exCost)]
    exUsed.state = .begin ∧ exUsed.transitions = [] ∧
    (run exEnv none exLeft exRightImg short (fresh Attrs.init)).2.toOption.map Option.isSome = some false ∧
    (run exEnv none exLeft exRightImg short exUsed).2.toOption.map Option.isSome = some true := by
  refine ⟨by decide +kernel, by decide +kernel, by decide +kernel, by decide +kernel⟩

end Verif.Props
