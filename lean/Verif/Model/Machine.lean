import Verif.Py.Float

/-!
# Model of `pandora2d/state_machine.py` (class `Pandora2DMachine`) and of `run` in `pandora2d/__init__.py`

The `transitions` library is external, its behaviour is assumed as follows (DESIGN.md, section 5): a trigger which belongs to
no transition raises `AttributeError`; a trigger which belongs to no transition leaving the current state raises
`MachineError`; otherwise the first added transition leaving the current state runs its `prepare` callback, its `before`
callback, then changes the state; an exception in a callback is propagated and leaves the state unchanged;
`remove_transition(trigger)` removes all the transitions of the trigger.
-/

namespace Verif.Machine

open Verif

/-- States, state_machine.py 121. -/
inductive St where
  | begin
  | assumption
  | costVolumes
  | dispMaps
deriving DecidableEq, Repr

/-- Methods used as callbacks. -/
inductive Cb where
  | estimationCheck
  | matchingCostCheck
  | disparityCheck
  | refinementCheck
  | matchingCostPrepare
  | estimationRun
  | matchingCostRun
  | dispMapsRun
  | refinementRun
deriving DecidableEq, Repr

structure Trans where
  trigger : String
  source : St
  dest : St
  prepare : Option Cb
  before : Cb
deriving DecidableEq, Repr

/-- `_transitions_run`, state_machine.py 66-84. -/
def transitionsRun : List Trans :=
  [⟨"estimation", .begin, .assumption, none, .estimationRun⟩,
   ⟨"matching_cost", .begin, .costVolumes, some .matchingCostPrepare, .matchingCostRun⟩,
   ⟨"matching_cost", .assumption, .costVolumes, some .matchingCostPrepare, .matchingCostRun⟩,
   ⟨"disparity", .costVolumes, .dispMaps, none, .dispMapsRun⟩,
   ⟨"refinement", .dispMaps, .dispMaps, none, .refinementRun⟩]

/-- `_transitions_check`, state_machine.py 86-97. -/
def transitionsCheck : List Trans :=
  [⟨"estimation", .begin, .assumption, none, .estimationCheck⟩,
   ⟨"matching_cost", .begin, .costVolumes, none, .matchingCostCheck⟩,
   ⟨"matching_cost", .assumption, .costVolumes, none, .matchingCostCheck⟩,
   ⟨"disparity", .costVolumes, .dispMaps, none, .disparityCheck⟩,
   ⟨"refinement", .dispMaps, .dispMaps, none, .refinementCheck⟩]

/-- The machine: state, transitions in order of addition, and the other attributes `D`. -/
structure Mach (D : Type) where
  state : St
  transitions : List Trans
  data : D

variable {D P : Type}

/-- `__init__`, state_machine.py 99-137: state `begin`, no transition. -/
def fresh (d : D) : Mach D := ⟨.begin, [], d⟩

/-- The `pipeline` section of a configuration: an ordered dictionary. -/
abbrev Pipeline (P : Type) := List (String × P)

/-- Behaviour of the callbacks: called with the configuration and the name of the step, they change the attributes of the
machine and may raise (the changes made before the exception remain). -/
abbrev Exec (D P : Type) := Cb → Pipeline P → String → D → D × Option Err

/-- `Machine.trigger(name, cfg, input_step)` of the library. -/
def trigger (exec : Exec D P) (cfg : Pipeline P) (name input : String) (m : Mach D) : Mach D × Option Err :=
  if m.transitions.all (fun t => decide (t.trigger ≠ name)) then (m, some .attributeError)
  else
    match m.transitions.find? (fun t => decide (t.trigger = name) && decide (t.source = m.state)) with
    | none => (m, some .machineError)
    | some t =>
      let (d1, e1) := match t.prepare with
        | none => (m.data, none)
        | some cb => exec cb cfg input m.data
      match e1 with
      | some e => ({ m with data := d1 }, some e)
      | none =>
        let (d2, e2) := exec t.before cfg input d1
        match e2 with
        | some e => ({ m with data := d2 }, some e)
        | none => ({ m with data := d2, state := t.dest }, none)

/-- The loop over the steps: stops at the first exception. -/
def loop (step : String → Mach D → Mach D × Option Err) : List String → Mach D → Mach D × Option Err
  | [], m => (m, none)
  | s :: ss, m =>
    match step s m with
    | (m', some e) => (m', some e)
    | (m', none) => loop step ss m'

/-- `remove_transitions`, state_machine.py 218-233. -/
def removeTransitions (l : List Trans) (m : Mach D) : Mach D :=
  { m with transitions := m.transitions.filter (fun t => decide (t.trigger ∉ l.map Trans.trigger)) }

/-- `check_conf`, state_machine.py 191-216: the name of the step is triggered as it is; when an exception is raised the
transitions are not removed and the state is not reset. -/
def checkConf (exec : Exec D P) (cfg : Pipeline P) (m : Mach D) : Mach D × Option Err :=
  match loop (fun s => trigger exec cfg s s) (cfg.map Prod.fst) { m with transitions := m.transitions ++ transitionsCheck } with
  | (m', some e) => (m', some e)
  | (m', none) => ({ removeTransitions transitionsCheck m' with state := .begin }, none)

/-- `input_step.split(".")[0]`. -/
def baseName (s : String) : String := String.ofList (s.toList.takeWhile (· ≠ '.'))

/-- `Pandora2DMachine.run`, state_machine.py 163-180 (both branches trigger the part of the name before the first dot). -/
def runStep (exec : Exec D P) (cfg : Pipeline P) (s : String) (m : Mach D) : Mach D × Option Err :=
  trigger exec cfg (baseName s) s m

/-- `pandora2d.run`, __init__.py 70-75: `run_prepare` (139-161, which stores the images and the configuration: `prep`), the
steps, `run_exit` (182-189). -/
def runAll (exec : Exec D P) (prep : D → D) (cfg : Pipeline P) (m : Mach D) : Mach D × Option Err :=
  match loop (runStep exec cfg) (cfg.map Prod.fst) { m with data := prep m.data, transitions := m.transitions ++ transitionsRun } with
  | (m', some e) => (m', some e)
  | (m', none) => ({ removeTransitions transitionsRun m' with state := .begin }, none)

/-! ## The attributes written by the checks -/

/-- Python dictionary assignment `d[k] = v`: the position of an existing key is kept. -/
def dictSet {α : Type} (d : List (String × α)) (k : String) (v : α) : List (String × α) :=
  if d.any (fun p => decide (p.1 = k)) then d.map (fun p => if p.1 = k then (k, v) else p) else d ++ [(k, v)]

/-- Attributes of the machine: `pipeline_cfg["pipeline"]`, the margins (cumulative and not, Pandora `GlobalMargins`), `step`
and `window_size`. -/
structure Attrs (P M : Type) where
  pipelineCfg : List (String × P)
  cumulative : List (String × M)
  nonCumulative : List (String × M)
  step : Option P
  windowSize : Option P

/-- `__init__`, state_machine.py 109-118. -/
def Attrs.init {P M : Type} : Attrs P M := ⟨[], [], [], none, none⟩

/-- Construction of the steps (`MatchingCost(cfg)`, `Disparity(cfg)`, …): checked configuration, and margins, step and window
size where they exist; may raise. -/
structure Steps (P M : Type) where
  estimation : P → Except Err P
  matchingCost : P → Except Err (P × P × P × M)
  disparity : P → Except Err (P × M)
  refinement : P → Option P → Option P → Except Err (P × M)

/-- `cfg["pipeline"][input_step]`. -/
def lookup (cfg : Pipeline P) (s : String) : Except Err P :=
  match cfg.find? (fun p => decide (p.1 = s)) with
  | some p => .ok p.2
  | none => .error .keyError

/-- The callbacks of the check: `estimation_check_conf` 235-248, `matching_cost_check_conf` 250-266, `disparity_check_conf`
268-280, `refinement_check_conf` 282-296. The callbacks of the run are not described here. -/
def checkExec {M : Type} (st : Steps P M) : Exec (Attrs P M) P := fun cb cfg s d =>
  match cb with
  | .estimationCheck =>
    match lookup cfg s >>= st.estimation with
    | .error e => (d, some e)
    | .ok c => ({ d with pipelineCfg := dictSet d.pipelineCfg s c }, none)
  | .matchingCostCheck =>
    match lookup cfg s >>= st.matchingCost with
    | .error e => (d, some e)
    | .ok (c, step, w, m) =>
      ({ d with
          pipelineCfg := dictSet d.pipelineCfg s c
          step := some step
          windowSize := some w
          cumulative := dictSet d.cumulative s m }, none)
  | .disparityCheck =>
    match lookup cfg s >>= st.disparity with
    | .error e => (d, some e)
    | .ok (c, m) => ({ d with pipelineCfg := dictSet d.pipelineCfg s c, cumulative := dictSet d.cumulative s m }, none)
  | .refinementCheck =>
    match lookup cfg s >>= fun c => st.refinement c d.step d.windowSize with
    | .error e => (d, some e)
    | .ok (c, m) => ({ d with pipelineCfg := dictSet d.pipelineCfg s c, nonCumulative := dictSet d.nonCumulative s m }, none)
  | _ => (d, none)

/-- `update_conf(cfg, machine.pipeline_cfg)` on the `pipeline` section (Pandora contract): for each step of the machine, the
configuration of the step is merged (`mrg`) with the one already there, or added at the end. -/
def updatePipeline (mrg : P → P → P) (user machine : Pipeline P) : Pipeline P :=
  machine.foldl (fun acc kv =>
    match acc.find? (fun p => decide (p.1 = kv.1)) with
    | some old => dictSet acc kv.1 (mrg old.2 kv.2)
    | none => dictSet acc kv.1 kv.2) user

/-- `check_pipeline_section`, check_configuration.py 247-279 (the `pipeline` key is present): the machine after the call and
the checked pipeline, or the exception. -/
def checkPipelineSection {M : Type} (st : Steps P M) (mrg : P → P → P) (cfg : Pipeline P) (m : Mach (Attrs P M)) :
    Mach (Attrs P M) × Except Err (Pipeline P) :=
  match checkConf (checkExec st) cfg m with
  | (m', some e) => (m', .error e)
  | (m', none) => (m', .ok (updatePipeline mrg cfg m'.data.pipelineCfg))

end Verif.Machine
