import Verif.Model.Datasets
import Verif.Model.Run
import Verif.Model.Save
import Verif.Model.Statistics

/-!
# Model of `main`, `pandora2d/__init__.py` 80-140

From the dictionary read in the configuration file to the files which are written. Not modelled: the reading of the JSON file, the
plugins, the logging, the failures of the disk when writing. The steps are built from the checked configuration before the first one
runs, the code builds each of them when it starts: only the exception of a configuration which fails twice could differ.
-/

namespace Verif.Main

open Verif Verif.Config Verif.Machine Verif.Filters Verif.ImgTools Verif.MatchingCost Verif.Disparity Verif.Estimation Verif.Run
  Verif.Save Verif.Statistics

/-- What is outside of the code. `pandora`, `offset`, `cost` and `measure` are Pandora's matching cost for a section (margins included);
`globalMargins` and `marginsDict` are those of Pandora's `GlobalMargins`; `files` and `check` read and check the datasets, `crs` and
`transform` are the attributes of the dataset of an image; `sinc` is the cardinal sine filter (half size, inverse of the fractional
shift); `extra` are the values `error` and `phase_diff` of the correlation. -/
structure World (K : Type) where
  env : Config.Env
  pandora : PandoraMc Margins
  offset : J → Nat
  cost : J → Pandora.Cost K
  measure : J → Measure
  sinc : Nat → Nat → IFilter K
  globalMargins : List (String × Margins) → List (String × Margins) → RoiMargins
  marginsDict : List (String × Margins) → List (String × Margins) → J
  files : Datasets.Files K
  crs : J → Option String
  transform : J → Option (Affine K)
  check : Left K → Option Err
  run : Run.Env K
  extra : Img K → Img K → Nat → J × J
  sqrt : F K → F K

/-! ## Reading the checked values -/

/-- A value used as a dictionary. -/
def asObj : J → Except Err Fields
  | .obj f => .ok f
  | _ => .error .typeError

/-- A value used as a natural number. Other numbers are not modelled (a row step which is not an integer, C73). -/
def asNat (v : J) : Except Err Nat :=
  match intVal true v with
  | some i => if 0 ≤ i then .ok i.toNat else .error .valueError
  | none => .error .typeError

/-- A value used as an integer. -/
def asInt (v : J) : Except Err Int :=
  match intVal true v with
  | some i => .ok i
  | none => .error .typeError

/-- A list of two natural numbers. -/
def asPair : J → Except Err (Nat × Nat)
  | .arr (.cons a (.cons b .nil)) => do
    let a ← asNat a
    let b ← asNat b
    return (a, b)
  | _ => .error .typeError

/-- A list of two natural numbers, else ones: only for the margins, which are not used when the check fails. -/
def pairOr (v : J) : Nat × Nat :=
  match asPair v with
  | .ok p => p
  | .error _ => (1, 1)

section
variable {K : Type} [Field K]

/-- A value used as a float. -/
def asFloat : J → Except Err (F K)
  | .float (.fin q) => .ok (.fin (q : K))
  | .float .nan => .ok .nan
  | .float .pinf => .ok .pinf
  | .float .ninf => .ok .ninf
  | .int i => .ok (.fin (i : K))
  | .bool b => .ok (.fin (if b then 1 else 0))
  | _ => .error .typeError

end

/-! ## Margins of the refinements -/

/-- `AbstractFilter.margins`: bicubic.py 49-51, cardinal_sine.py 58-61. -/
def filterMargins (v : J) : Margins :=
  match v with
  | .obj f =>
    if f.get "method" = some (.str "sinc") then Dichotomy.sincMargins (pyInt ((f.get "size").getD (.int 6))).toNat
    else Dichotomy.bicubicMargins
  | _ => Dichotomy.bicubicMargins

/-- `margins` of a refinement, of its checked configuration: dichotomy.py 83-91, optical_flow.py 92-95, interpolation.py 49. -/
def refMargins (v : J) : Margins :=
  match v with
  | .obj f =>
    if f.get "refinement_method" = some (.str "dichotomy") then filterMargins ((f.get "filter").getD .null)
    else if f.get "refinement_method" = some (.str "optical_flow") then
      let step := pairOr ((f.get "step").getD .null)
      OpticalFlow.margins (pyInt ((f.get "window_size").getD .null)).toNat step.1 step.2
    else ⟨3, 3, 3, 3⟩
  | _ => ⟨3, 3, 3, 3⟩

variable {K : Type} [Field K] [LinearOrder K] [IsStrictOrderedRing K] [FloorRing K]

/-- The steps given to the check of the pipeline. -/
def World.steps (w : World K) : Steps J Margins := stepsOf w.env.boolIsInt w.pandora ⟨0, 0, 0, 0⟩ refMargins

/-! ## Construction of the steps of the run -/

/-- `estimation.AbstractEstimation(cfg["pipeline"][input_step])`, state_machine.py 315. -/
def buildEstimation (w : World K) (v : J) : Except Err (StepCfg K) := do
  let c ← estimationCheck w.env.boolIsInt v
  let f ← asObj c
  let rr ← item f "range_row"
  let rr ← asInt rr
  let rc ← item f "range_col"
  let rc ← asInt rc
  let sf ← item f "sample_factor"
  let sf ← asNat sf
  return .estimation rr rc sf

/-- `MatchingCost(cfg["pipeline"][input_step])`, state_machine.py 308. -/
def buildMatchingCost (w : World K) (v : J) : Except Err (StepCfg K) := do
  let (c, _) ← matchingCostCheck w.pandora v
  let f ← asObj c
  let subpix ← item f "subpix"
  let subpix ← asNat subpix
  let step ← item f "step"
  let step ← asPair step
  return .matchingCost ⟨subpix, step.1, step.2, w.measure c⟩ (w.offset c) (w.cost c)

/-- `Disparity(cfg["pipeline"][input_step])`, state_machine.py 366. -/
def buildDisparity (w : World K) (v : J) : Except Err (StepCfg K) := do
  let c ← disparityCheck w.env.boolIsInt v
  let f ← asObj c
  let invalid ← item f "invalid_disparity"
  let invalid ← asFloat invalid
  return .disparity invalid

/-- `AbstractFilter(cfg["filter"], fractional_shift=2 ** -iterations)`, dichotomy.py 56-59. -/
def buildFilter (w : World K) (iterations : Nat) (v : J) : Except Err (IFilter K) := do
  let f ← asObj v
  if f.get "method" = some (.str "sinc") then do
    let n ← asNat ((f.get "size").getD (.int 6))
    return w.sinc n (2 ^ iterations)
  else return Filters.bicubic

/-- `refinement.AbstractRefinement(cfg["pipeline"][input_step], self.step, self.window_size)`, state_machine.py 399-401. -/
def buildRefinement (w : World K) (a : Machine.Attrs J Margins) (v : J) : Except Err (StepCfg K) := do
  let c ← refinementCheck w.env.boolIsInt v a.step a.windowSize
  let f ← asObj c
  if f.get "refinement_method" = some (.str "dichotomy") then do
    let it ← item f "iterations"
    let it ← asNat it
    let g ← item f "filter"
    let g ← buildFilter w it g
    return .dichotomy g it
  else if f.get "refinement_method" = some (.str "optical_flow") then do
    let it ← item f "iterations"
    let it ← asNat it
    let win ← item f "window_size"
    let win ← asNat win
    return .opticalFlow ⟨win, it⟩
  else return .interpolation

/-- The object of a step, by the name of the step. -/
def build (w : World K) (a : Machine.Attrs J Margins) (name : String) (v : J) : Except Err (StepCfg K) :=
  if baseName name = "estimation" then buildEstimation w v
  else if baseName name = "matching_cost" then buildMatchingCost w v
  else if baseName name = "disparity" then buildDisparity w v
  else buildRefinement w a v

/-- All the steps. -/
def buildAll (w : World K) (a : Machine.Attrs J Margins) : Pipeline J → Except Err (Pipeline (StepCfg K))
  | [] => .ok []
  | (k, v) :: l => do
    let c ← build w a k v
    let r ← buildAll w a l
    return (k, c) :: r

/-! ## Region of interest -/

/-- `first` and `last` of a direction. -/
def roiDir (f : Fields) (key : String) : Except Err (Int × Int) := do
  let v ← item f key
  let g ← asObj v
  let a ← item g "first"
  let a ← asInt a
  let b ← item g "last"
  let b ← asInt b
  return (a, b)

/-- The ROI of the configuration with given margins. -/
def asRoi (v : J) (m : RoiMargins) : Except Err Roi := do
  let f ← asObj v
  let c ← roiDir f "col"
  let r ← roiDir f "row"
  return ⟨c.1, c.2, r.1, r.2, m⟩

/-- `cfg["ROI"]["margins"]` after the call of `get_roi_processing`. -/
def marginsJ (m : RoiMargins) : J :=
  .arr (.cons (.int m.left) (.cons (.int m.up) (.cons (.int m.right) (.cons (.int m.down) .nil))))

/-- The ROI, __init__.py 108-114: the configuration after the call, the ROI given to the reading of the images, the ROI which is in the
configuration. -/
def roiStep (w : World K) (a : Machine.Attrs J Margins) (cfg : Fields) (col row : J) :
    Except Err (Fields × Option Roi × Option Roi) :=
  match cfg.get "ROI" with
  | none => .ok (cfg, none, none)
  | some v => do
    let roi ← asRoi v (w.globalMargins a.cumulative a.nonCumulative)
    let c ← Datasets.dispOf w.files col
    let r ← Datasets.dispOf w.files row
    let out ← getRoiProcessing roi c r
    let f ← asObj v
    return (cfg.set "ROI" (.obj (f.set "margins" (marginsJ out.2.margins))), some out.1, some out.2)

/-! ## The run -/

/-- `margins.get("refinement")`: the refinement of this name is the only one to write it. -/
def refinementMargins (a : Machine.Attrs J Margins) : Option Margins :=
  match lookup a.nonCumulative "refinement" with
  | .ok m => some m
  | .error _ => none

/-- What `estimation_run` writes in the configuration, state_machine.py 333-335. -/
def completed (w : World K) (steps : Pipeline (StepCfg K)) (left right : Img K) (cfg : Fields) : Except Err Fields :=
  match lookup steps "estimation" with
  | .ok (.estimation rr rc sf) => do
    let x := w.extra left right sf
    let o ← estimationRun (w.run.correlation left right sf) x.1 x.2 rr rc left.row0 left.col0 left.h left.w cfg
    return o.2.2
  | _ => .ok cfg

/-- What is known after the run: the maps (`none` for the empty dataset), the ROI, the completed configuration. -/
structure Done (K : Type) where
  maps : Option (MapsData K)
  roi : Option Roi
  cfg : Fields

/-- `__init__.py` 103-125, with the machine left by the check. -/
def launch (w : World K) (m : Mach (Machine.Attrs J Margins)) (cfg : Fields) : Except Err (Done K) := do
  let i ← item cfg "input"
  let input ← asObj i
  let col ← item input "col_disparity"
  let row ← item input "row_disparity"
  let (cfg, readRoi, roi) ← roiStep w m.data cfg col row
  let p ← item cfg "pipeline"
  let pl ← asObj p
  let (input, left, right) ← Datasets.createDatasets w.files input readRoi (pl.get "estimation").isSome
  let cfg := cfg.set "input" (.obj input)
  Datasets.checkDatasets w.check left right
  let steps ← buildAll w m.data (toPipeline pl)
  let start : Mach (Run.Attrs K) := ⟨m.state, m.transitions, { (Run.Attrs.init : Run.Attrs K) with margins := refinementMargins m.data }⟩
  let maps ← (Run.run w.run roi left right.img steps start).2
  let cfg ← completed w steps left.img right.img cfg
  return ⟨maps, roi, cfg⟩

/-! ## What is written -/

/-- What is written: the three rasters, the report (rows, columns), the configuration, the summary of the profiling. -/
inductive Written (K : Type) where
  | rasters (f : Files K (F K))
  | report (row col : Stats K)
  | config (cfg : Fields)
  | summary (expert : J)

/-- `cfg["pipeline"]["matching_cost"]["step"]`, common.py 114-125. -/
def stepIn (cfg : Fields) : Except Err (Option (Nat × Nat)) :=
  match cfg.get "pipeline" with
  | some (.obj pl) =>
    match pl.get "matching_cost" with
    | some (.obj mc) =>
      match mc.get "step" with
      | some v => (asPair v).map some
      | none => .ok none
    | _ => .ok none
  | _ => .ok none

/-- The image section `cfg["input"]["left"]`. -/
def leftOf (cfg : Fields) : J :=
  match cfg.get "input" with
  | some (.obj i) => (i.get "left").getD .null
  | _ => .null

/-- The rasters and the report, __init__.py 127-132. The report is made on the dataset given to `save_dataset`. -/
def saveMaps (w : World K) (d : Done K) : Except Err (List (Written K)) :=
  match d.maps with
  | none => .ok []
  | some m => do
    let step ← stepIn d.cfg
    let o ← saveDataset ⟨⟨m.row, m.col, m.rowMap.get, m.colMap.get, m.score.get⟩, w.crs (leftOf d.cfg), w.transform (leftOf d.cfg)⟩
      ⟨d.roi, step⟩
    let s := reportDisparities w.sqrt m.rowMap m.colMap m.invalid
    return [.rasters o.1, .report s.1 s.2]

/-- The configuration and the summary, __init__.py 133-140. -/
def finish (w : World K) (a : Machine.Attrs J Margins) (cfg : Fields) : List (Written K) :=
  .config (cfg.set "margins" (w.marginsDict a.cumulative a.nonCumulative)) ::
    match cfg.get "expert_mode" with
    | some e => [.summary e]
    | none => []

/-- `main`, __init__.py 80-140: what is written, in order, and the exception. -/
def main (w : World K) (user : Fields) : List (Written K) × Option Err :=
  match Config.checkConf w.env w.steps user (fresh .init) with
  | (_, .error e) => ([], some e)
  | (m, .ok cfg) =>
    match launch w m cfg with
    | .error e => ([], some e)
    | .ok d =>
      match saveMaps w d with
      | .error e => ([], some e)
      | .ok l => (l ++ finish w m.data d.cfg, none)

end Verif.Main
