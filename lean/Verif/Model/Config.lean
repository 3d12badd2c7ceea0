import Verif.Model.Json
import Verif.Model.Machine

/-!
# Configuration checks

Model of `pandora2d/check_configuration.py` and of the `check_conf` of the steps.

External: json_checker is modelled by predicates on values (a dictionary schema accepts exactly the dictionaries with the keys of
the schema and accepted values, any failure is one exception `Err.checker`); whether it takes a Boolean for an integer is a
parameter. The files on disk are parameters (`Env`).
-/

namespace Verif.Config

open Verif Verif.Machine

/-! ## json_checker -/

/-- A schema: a predicate on values. -/
abbrev Schema := J → Bool

/-- `Checker({...})` on a dictionary: the keys of the schema, all of them and no other, except the keys declared with `OptionalKey`. -/
def dictOpt (l optional : List (String × Schema)) : Schema
  | .obj f =>
    f.keys.all (fun k => decide (k ∈ l.map Prod.fst ∨ k ∈ optional.map Prod.fst)) &&
    l.all (fun p => match f.get p.1 with | some v => p.2 v | none => false) &&
    optional.all (fun p => match f.get p.1 with | some v => p.2 v | none => true)
  | _ => false

/-- The same without optional key. -/
def dictOf (l : List (String × Schema)) : Schema := dictOpt l []

/-- The integer accepted by the type `int` of json_checker; `bi` tells whether Booleans are accepted. -/
def intVal (bi : Bool) : J → Option Int
  | .int i => some i
  | .bool b => if bi then some (if b then 1 else 0) else none
  | _ => none

/-- `And(int, p)`. -/
def intAnd (bi : Bool) (p : Int → Bool) : Schema := fun v =>
  match intVal bi v with
  | some i => p i
  | none => false

/-- `isinstance(v, int)`. -/
def isIntPy : J → Bool
  | .int _ => true
  | .bool _ => true
  | _ => false

/-- `And(str, lambda x: x in l)`. -/
def strIn (l : List String) : Schema
  | .str s => decide (s ∈ l)
  | _ => false

def isStr : Schema
  | .str _ => true
  | _ => false

/-- `lambda input: np.isnan(input)` or `np.isinf(input)`. Lists are not modelled (rejected). -/
def nanOrInf : Schema
  | .float x => x.isNaN || x.isInf
  | _ => false

/-- `STEP_SCHEMA`, schema.py 24: a list of two values at least 1. -/
def stepSchema : Schema
  | .arr l => decide (l.toList.length = 2) && l.toList.all fun v => match v with
    | .int i => decide (1 ≤ i)
    | .bool b => b
    | .float (.fin q) => decide (1 ≤ q)
    | .float .pinf => true
    | _ => false
  | _ => false

/-! ## Files -/

/-- What the checks see of a grid file: number of bands, size and maximum of the absolute values (`none` when it is NaN). -/
structure GridFile where
  count : Nat
  height : Nat
  width : Nat
  maxAbs : Option Rat

/-- The environment: json_checker on Booleans, files, images. `canOpen` is Pandora's `rasterio_can_open` (accepts `None`),
`canOpenMandatory` is `rasterio_can_open_mandatory`, `checkImages` is Pandora's `check_images`, `imageSize` the rows and columns
given by `get_metadata`. -/
structure Env where
  boolIsInt : Bool
  canOpen : J → Bool
  canOpenMandatory : J → Bool
  openGrid : String → Except Err GridFile
  checkImages : J → Option Err
  imageSize : J → Except Err (Nat × Nat)

/-! ## Input section -/

/-- `input_configuration_schema`, check_configuration.py 389-402. -/
def inputSchema (env : Env) : Schema :=
  let image : Schema := dictOf [
    ("img", fun v => isStr v && env.canOpenMandatory v),
    ("nodata", fun v => (intVal env.boolIsInt v).isSome || nanOrInf v),
    ("mask", fun v => (isStr v || decide (v = .null)) && env.canOpen v)]
  let disp : Schema := dictOf [
    ("init", fun v => (intVal env.boolIsInt v).isSome || env.canOpen v),
    ("range", intAnd env.boolIsInt fun x => decide (0 ≤ x))]
  dictOf [("left", image), ("right", image), ("col_disparity", disp), ("row_disparity", disp)]

/-- `default_short_configuration_input`, 404-415. -/
def defaultInput : Fields :=
  let image := Fields.cons "nodata" (.int (-9999)) (.cons "mask" .null .nil)
  .cons "input" (.obj (.cons "left" (.obj image) (.cons "right" (.obj image) .nil))) .nil

/-- `default_configuration_disp`, 417-419. -/
def defaultDisp : Fields :=
  let disp := Fields.cons "init" (.int (-9997)) (.cons "range" (.int 2) .nil)
  .cons "input" (.obj (.cons "col_disparity" (.obj disp) (.cons "row_disparity" (.obj disp) .nil))) .nil

/-- `check_disparity_grids`, 151-171. -/
def checkDisparityGrids (size : Nat × Nat) (g : GridFile) : Except Err Unit :=
  if g.count ≠ 1 then .error .attributeError
  else if (g.height, g.width) ≠ size then .error .attributeError
  else .ok ()

/-- `check_disparity_ranges_are_inside_image`, 198-217, with `init` and `range` as numbers (`none` for NaN). -/
def checkRanges (size : Nat × Nat) (rowInit : Option Rat) (rowRange : Int) (colInit : Option Rat) (colRange : Int) :
    Except Err Unit :=
  let out (init : Option Rat) (range : Int) (n : Nat) : Bool :=
    match init with
    | none => false
    | some i => decide (|i| - (range : Rat) > (n : Rat))
  if out rowInit rowRange size.1 then .error .valueError
  else if out colInit colRange size.2 then .error .valueError
  else .ok ()

/-- `input_cfg[key]` on a dictionary. -/
def item (f : Fields) (k : String) : Except Err J :=
  match f.get k with
  | some v => .ok v
  | none => .error .keyError

/-- `range` as a number; it is an integer after the schema. -/
def rangeOf (f : Fields) : Except Err Int := do
  let v ← item f "range"
  match intVal true v with
  | some i => .ok i
  | none => .error .typeError

/-- The Python integer of a value for which `isinstance(v, int)`. -/
def pyInt (v : J) : Int := (intVal true v).getD 0

/-- `check_disparity`, 110-148. -/
def checkDisparity (env : Env) (size : Nat × Nat) (input : Fields) : Except Err Unit := do
  let r ← item input "row_disparity"
  match r with
  | .obj row => do
    let c ← item input "col_disparity"
    match c with
    | .obj col => do
      let ri ← item row "init"
      let ci ← item col "init"
      match ri, ci with
      | .str a, .str b => do
        let ga ← env.openGrid a
        let gb ← env.openGrid b
        checkDisparityGrids size ga
        checkDisparityGrids size gb
        let rr ← rangeOf row
        let cr ← rangeOf col
        checkRanges size ga.maxAbs rr gb.maxAbs cr
      | _, _ =>
        if isIntPy ri && isIntPy ci then do
          let rr ← rangeOf row
          let cr ← rangeOf col
          checkRanges size (some (pyInt ri : Rat)) rr (some (pyInt ci : Rat)) cr
        else .error .valueError
    | _ => .error .attributeError
  | _ => .error .attributeError

/-- The tests of `check_input_section` on the completed configuration, 95-105. -/
def validateInput (env : Env) (estimation : Bool) (cfg : Fields) : Except Err Unit :=
  if dictOf [("input", inputSchema env)] (.obj cfg) then
    match cfg.get "input" with
    | some (.obj input) =>
      match env.checkImages (.obj input) with
      | some e => .error e
      | none =>
        if estimation then .ok ()
        else
          match env.imageSize (.obj input) with
          | .error e => .error e
          | .ok size => checkDisparity env size input
    | _ => .error .checker
  else .error .checker

/-- `check_input_section`, 72-107. `estimation` tells whether `estimation_config is not None`. -/
def checkInputSection (env : Env) (user : Fields) (estimation : Bool) : Except Err Fields :=
  match user.get "input" with
  | none => .error .keyError
  | some _ =>
    match updateConf defaultInput user with
    | .error e => .error e
    | .ok cfg =>
      match (if estimation then updateConf defaultDisp cfg else .ok cfg) with
      | .error e => .error e
      | .ok cfg =>
        match validateInput env estimation cfg with
        | .error e => .error e
        | .ok () => .ok cfg

/-! ## ROI section -/

/-- `roi_configuration_schema`, 421-424. -/
def roiSchema (bi : Bool) : Schema :=
  let bound : Schema := intAnd bi fun x => decide (0 ≤ x)
  let dir : Schema := dictOf [("first", bound), ("last", bound)]
  dictOf [("row", dir), ("col", dir)]

/-- `check_roi_coherence`, 358-368. -/
def checkRoiCoherence (v : J) : Except Err Unit :=
  match v with
  | .obj f => do
    let a ← item f "first"
    let b ← item f "last"
    if pyInt a > pyInt b then .error .valueError else .ok ()
  | _ => .error .typeError

/-- `check_roi_section`, 220-244. -/
def checkRoiSection (bi : Bool) (user : Fields) : Except Err Fields :=
  if user = .nil then .ok .nil
  else do
    let cfg ← updateConf .nil user
    if dictOf [("ROI", roiSchema bi)] (.obj cfg) then
      match cfg.get "ROI" with
      | some (.obj roi) => do
        let c ← item roi "col"
        checkRoiCoherence c
        let r ← item roi "row"
        checkRoiCoherence r
        .ok cfg
      | _ => .error .typeError
    else .error .checker

/-- `get_roi_config`, 371-386. -/
def getRoiConfig (user : Fields) : Fields :=
  match user.get "ROI" with
  | some v => .cons "ROI" v .nil
  | none => .nil

/-! ## Steps -/

/-- The invalid disparity by default or converted, disparity.py 53-57. -/
def fillInvalid (f : Fields) : Fields :=
  match f.get "invalid_disparity" with
  | none => f.set "invalid_disparity" (.int (-9999))
  | some (.str s) => if s = "NaN" then f.set "invalid_disparity" (.float .nan) else f
  | some _ => f

/-- Schema of the disparity step, disparity.py 59-62. -/
def disparitySchema (bi : Bool) : Schema :=
  dictOf [("disparity_method", strIn ["wta"]),
    ("invalid_disparity", fun v => (intVal bi v).isSome || (match v with | .float _ => true | _ => false))]

/-- `Disparity.check_conf`, disparity.py 46-70. -/
def disparityCheck (bi : Bool) : J → Except Err J
  | .obj f => if disparitySchema bi (.obj (fillInvalid f)) then .ok (.obj (fillInvalid f)) else .error .checker
  | _ => .error .typeError

/-- The defaults of the estimation, phase_cross_correlation.py 70-78. -/
def fillEstimation (f : Fields) : Fields :=
  ((f.setDefault "range_col" (.int 5)).setDefault "range_row" (.int 5)).setDefault "sample_factor" (.int 1)

/-- Schema of the estimation, phase_cross_correlation.py 81-86. -/
def estimationSchema (bi : Bool) : Schema :=
  let range : Schema := intAnd bi fun x => decide (2 < x) && decide (x % 2 ≠ 0)
  dictOf [("estimation_method", strIn ["phase_cross_correlation"]), ("range_row", range), ("range_col", range),
    ("sample_factor", intAnd bi fun x => (decide (x % 10 = 0) || decide (x = 1)) && decide (0 < x))]

/-- `AbstractEstimation.__new__` and `PhaseCrossCorrelation.check_conf`, estimation.py 43-74, phase_cross_correlation.py 60-91. -/
def estimationCheck (bi : Bool) : J → Except Err J
  | .obj f =>
    match f.get "estimation_method" with
    | none => .error .keyError
    | some (.str s) =>
      if s = "phase_cross_correlation" then
        if estimationSchema bi (.obj (fillEstimation f)) then .ok (.obj (fillEstimation f)) else .error .checker
      else .error .keyError
    | some _ => .error .nameError
  | _ => .error .typeError

/-- Pandora's side of the matching cost: `AbstractMatchingCost(**cfg)` with the column step; gives the window size, the subpixel
factor, the spline order and the margins. -/
abbrev PandoraMc (M : Type) := Fields → Except Err (J × J × J × M)

/-- `MatchingCost.__init__`, `check_conf` and `cfg`, matching_cost.py 53-86, 138-172: checked configuration, step, window size,
margins. -/
def matchingCostCheck {M : Type} (pandora : PandoraMc M) : J → Except Err (J × J × J × M)
  | .obj f =>
    match f.get "matching_cost_method" with
    | none => .error .keyError
    | some method =>
      let step := (f.get "step").getD (.arr (.cons (.int 1) (.cons (.int 1) .nil)))
      if strIn ["ssd", "sad", "zncc", "mc_cnn"] method && stepSchema step then
        match step with
        | .arr (.cons sr (.cons sc .nil)) =>
          match pandora (f.set "step" sc) with
          | .error e => .error e
          | .ok (w, subpix, spline, m) =>
            .ok (.obj (.cons "matching_cost_method" method (.cons "step" (.arr (.cons sr (.cons sc .nil)))
              (.cons "window_size" w (.cons "subpix" subpix (.cons "spline_order" spline .nil))))), step, w, m)
        | _ => .error .indexError
      else .error .checker
  | _ => .error .typeError

/-- `AbstractFilter.__new__` and `check_conf`, interpolation_filter.py 46-81; schemas bicubic.py 40, cardinal_sine.py 38. -/
def filterCheck (bi : Bool) : J → Except Err Unit
  | .obj f =>
    match f.get "method" with
    | none => .error .keyError
    | some (.str s) =>
      if s = "bicubic" then
        if dictOf [("method", strIn ["bicubic"])] (.obj f) then .ok () else .error .checker
      else if s = "sinc" then
        if dictOpt [("method", strIn ["sinc"])] [("size", intAnd bi fun a => decide (6 ≤ a) && decide (a ≤ 21))] (.obj f)
        then .ok () else .error .checker
      else .error .keyError
    | some _ => .error .typeError
  | _ => .error .typeError

/-- `Dichotomy.NB_MAX_ITER`, dichotomy.py 41. -/
def nbMaxIter : Int := 9

/-- Schema of the dichotomy, dichotomy.py 42-46. -/
def dichotomySchema (bi : Bool) : Schema :=
  dictOf [("refinement_method", strIn ["dichotomy"]), ("iterations", intAnd bi fun x => decide (0 < x)),
    ("filter", fun v => match v with
      | .obj g => (match g.get "method" with | some m => strIn ["bicubic", "sinc"] m | none => false)
      | _ => false)]

/-- The cap on the number of iterations, dichotomy.py 74-80. -/
def capIterations (f : Fields) : Fields :=
  match f.get "iterations" with
  | some v => if pyInt v > nbMaxIter then f.set "iterations" (.int nbMaxIter) else f
  | none => f

/-- `Dichotomy.__init__` and `check_conf`, dichotomy.py 42-81. -/
def dichotomyCheck (bi : Bool) (f : Fields) : Except Err J :=
  if dichotomySchema bi (.obj f) then
    match (capIterations f).get "filter" with
    | some v =>
      match filterCheck bi v with
      | .error e => .error e
      | .ok () => .ok (.obj (capIterations f))
    | none => .error .keyError
  else .error .checker

/-- The parameters written by `OpticalFlow.__init__` and `check_conf`, optical_flow.py 65-66, 86. -/
def fillOpticalFlow (f : Fields) (step window : Option J) : Fields :=
  ((f.set "window_size" (window.getD .null)).set "step" (step.getD (.arr (.cons (.int 1) (.cons (.int 1) .nil))))).setDefault
    "iterations" (.int 4)

/-- Schema of the optical flow, optical_flow.py 48-53. -/
def opticalFlowSchema (bi : Bool) : Schema :=
  dictOf [("refinement_method", strIn ["optical_flow"]), ("iterations", intAnd bi fun x => decide (0 < x)),
    ("window_size", intAnd bi fun x => decide (1 < x) && decide (x % 2 ≠ 0)), ("step", stepSchema)]

/-- `OpticalFlow.__init__` and `check_conf`, optical_flow.py 46-90. -/
def opticalFlowCheck (bi : Bool) (f : Fields) (step window : Option J) : Except Err J :=
  if opticalFlowSchema bi (.obj (fillOpticalFlow f step window)) then .ok (.obj (fillOpticalFlow f step window))
  else .error .checker

/-- `Interpolation`, schema interpolation.py 50-52. -/
def interpolationCheck (f : Fields) : Except Err J :=
  if dictOf [("refinement_method", strIn ["interpolation"])] (.obj f) then .ok (.obj f) else .error .checker

/-- `AbstractRefinement.__new__` and the subclasses, refinement.py 51-84. -/
def refinementCheck (bi : Bool) (v : J) (step window : Option J) : Except Err J :=
  match v with
  | .obj f =>
    match f.get "refinement_method" with
    | none => .error .keyError
    | some (.str s) =>
      if s = "dichotomy" then dichotomyCheck bi f
      else if s = "optical_flow" then opticalFlowCheck bi f step window
      else if s = "interpolation" then interpolationCheck f
      else .error .keyError
    | some _ => .error .nameError
  | _ => .error .typeError

/-- The steps given to the state machine. The margins of the disparity are null; those of the refinement are a function of its
configuration. -/
def stepsOf {M : Type} (bi : Bool) (pandora : PandoraMc M) (nullMargins : M) (refMargins : J → M) : Steps J M where
  estimation := estimationCheck bi
  matchingCost := matchingCostCheck pandora
  disparity v := (disparityCheck bi v).map fun c => (c, nullMargins)
  refinement v step window := (refinementCheck bi v step window).map fun c => (c, refMargins c)

/-! ## Whole configuration -/

/-- `check_right_nodata_condition`, 341-355. -/
def checkRightNodata (input : Fields) (pipeline : Fields) : Except Err Unit := do
  let i ← item input "input"
  match i with
  | .obj i => do
    let r ← item i "right"
    match r with
    | .obj r => do
      let nodata ← item r "nodata"
      if isIntPy nodata then .ok ()
      else do
        let m ← item pipeline "matching_cost"
        match m with
        | .obj m => do
          let method ← item m "matching_cost_method"
          if strIn ["sad", "ssd"] method then .error .valueError else .ok ()
        | _ => .error .typeError
    | _ => .error .typeError
  | _ => .error .typeError

/-- The dictionary of the steps as a list. -/
def toPipeline : Fields → Pipeline J
  | .nil => []
  | .cons k v r => (k, v) :: toPipeline r

/-- A list of checked steps as a dictionary. -/
def ofPipeline : Pipeline J → Fields
  | [] => .nil
  | (k, v) :: l => .cons k v (ofPipeline l)

/-- `check_pipeline_section`, 247-279, on configuration values: the machine after the call and the section
`{"pipeline": …}`. -/
def checkPipelineJ {M : Type} (st : Steps J M) (user : Fields) (m : Mach (Attrs J M)) :
    Mach (Attrs J M) × Except Err Fields :=
  match updateConf .nil user with
  | .error e => (m, .error e)
  | .ok cfg =>
    match cfg.get "pipeline" with
    | none => (m, .error .keyError)
    | some (.obj pl) =>
      match Machine.checkConf (checkExec st) (toPipeline pl) m with
      | (m', some e) => (m', .error e)
      | (m', none) =>
        match updateConf pl (ofPipeline m'.data.pipelineCfg) with
        | .error e => (m', .error e)
        | .ok pl' => (m', .ok (.cons "pipeline" (.obj pl') .nil))
    | some _ => (m, .error .typeError)

/-- `check_expert_mode_section`, 282-302 (`{}` when absent, 332-334). -/
def checkExpert (user : Fields) : Except Err Fields :=
  match user.get "expert_mode" with
  | none => .ok .nil
  | some (.obj .nil) => .ok .nil
  | some (.obj e) =>
    match e.get "profiling" with
    | none => .error .checker
    | some p => if dictOf [("folder_name", isStr)] p then .ok (.cons "expert_mode" (.obj e) .nil) else .error .checker
  | some _ => .error .typeError

/-- Pandora's `get_config_input`. -/
def getConfigInput (user : Fields) : Fields :=
  match user.get "input" with
  | some v => .cons "input" v .nil
  | none => .nil

/-- `check_conf`, 305-338. -/
def checkConf {M : Type} (env : Env) (st : Steps J M) (user : Fields) (m : Mach (Attrs J M)) :
    Mach (Attrs J M) × Except Err Fields :=
  match user.get "pipeline" with
  | none => (m, .error .keyError)
  | some (.obj pl) =>
    let estimation := match pl.get "estimation" with
      | none => false
      | some v => decide (v ≠ .null)
    match checkInputSection env (getConfigInput user) estimation with
    | .error e => (m, .error e)
    | .ok input =>
      match checkRoiSection env.boolIsInt (getRoiConfig user) with
      | .error e => (m, .error e)
      | .ok roi =>
        match checkPipelineJ st user m with
        | (m', .error e) => (m', .error e)
        | (m', .ok pipeline) =>
          let steps := match pipeline.get "pipeline" with | some (.obj p) => p | _ => .nil
          let nodata := match steps.get "matching_cost" with
            | some _ => checkRightNodata input steps
            | none => .ok ()
          match nodata with
          | .error e => (m', .error e)
          | .ok () =>
            match checkExpert user with
            | .error e => (m', .error e)
            | .ok expert => (m', .ok (input.append (roi.append (pipeline.append expert))))
  | some _ => (m, .error .attributeError)

end Verif.Config
