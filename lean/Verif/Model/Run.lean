import Verif.Model.Machine
import Verif.Model.MatchingCost
import Verif.Model.Dichotomy
import Verif.Model.OpticalFlow
import Verif.Model.Interpolation
import Verif.Model.Estimation

/-!
# Model of the run: the callbacks of `pandora2d/state_machine.py` 298-408 on the images

The steps are those of the other files. The configurations of the steps are those which the constructors of the steps build from the
checked configuration (checking again a checked configuration changes nothing, C38).
-/

namespace Verif.Run

open Verif Verif.Machine Verif.Filters Verif.ImgTools Verif.MatchingCost Verif.Disparity Verif.Estimation

/-- External functions: resampling, phase correlation (`sample_factor` given), the functions used by the refinements. -/
structure Env (K : Type) where
  zoom : Zoom K
  correlation : Img K → Img K → Nat → F Rat × F Rat
  flow : OpticalFlow.Ext K
  junk : Nat → Nat → OpticalFlow.Win K
  interp : Interpolation.IExt K

/-- Configuration of a step. For the matching cost, `offset` is the attribute `offset_row_col` of the volumes and `cost` the measure of
Pandora. -/
inductive StepCfg (K : Type) where
  | estimation (rangeRow rangeCol : Int) (sampleFactor : Nat)
  | matchingCost (cfg : MatchingCost.Cfg) (offset : Nat) (cost : Pandora.Cost K)
  | disparity (invalid : F K)
  | dichotomy (f : IFilter K) (iterations : Nat)
  | opticalFlow (cfg : OpticalFlow.Cfg)
  | interpolation

/-- The dataset of the maps, `common.dataset_disp_maps`, common.py 144-200: coordinates, three maps, attribute `invalid_disp`. -/
structure MapsData (K : Type) where
  row : Arr1 Int
  col : Arr1 Int
  rowMap : Arr2 (F K)
  colMap : Arr2 (F K)
  score : Arr2 (F K)
  invalid : F K

/-- The cost volumes with the attributes `offset_row_col` and `step`. -/
structure Volumes (K : Type) where
  cv : CostVolumes K
  offset : Nat
  stepRow : Nat
  stepCol : Nat

/-- Attributes of the machine used by the run, state_machine.py 106-124: images, matching cost object, cost volumes, maps; `margins` is
`margins.get("refinement")`, written by the check. -/
structure Attrs (K : Type) where
  left : Option (Left K)
  right : Option (Img K)
  mc : Option (MatchingCost.Cfg × Nat × Pandora.Cost K)
  volumes : Option (Volumes K)
  maps : Option (MapsData K)
  margins : Option Margins

/-- `__init__`: nothing yet. -/
def Attrs.init {K : Type} : Attrs K := ⟨none, none, none, none, none, none⟩

variable {K : Type} [Field K] [LinearOrder K] [IsStrictOrderedRing K] [FloorRing K]

/-- The search ranges given to the left image by the estimation, state_machine.py 326-331. -/
def estimate (e : Env K) (rangeRow rangeCol : Int) (sf : Nat) (left : Left K) (right : Img K) : Except Err (Left K) := do
  let x ← computeEstimation (e.correlation left.img right sf) rangeRow rangeCol
  let colGrid ← getMinMax left.img.row0 left.img.col0 left.img.h left.img.w x.col false
  let rowGrid ← getMinMax left.img.row0 left.img.col0 left.img.h left.img.w x.row false
  return { left with colDisp := colGrid, rowDisp := rowGrid }

/-- `dataset["…"].data = values`: xarray refuses another shape. -/
def sameSize (m : MapsData K) (a : Arr2 (F K)) : Bool := decide (a.h = m.row.n ∧ a.w = m.col.n)

/-- The three assignments of `refinement_run`, state_machine.py 406-408. -/
def assign (m : MapsData K) (row col score : Arr2 (F K)) : Except Err (MapsData K) :=
  if sameSize m row && sameSize m col && sameSize m score then .ok { m with rowMap := row, colMap := col, score := score }
  else .error .valueError

/-- `refinement_run.refinement_method(...)` and the assignments, state_machine.py 399-408. -/
def refine (e : Env K) (c : StepCfg K) (left : Left K) (right : Img K) (v : Volumes K) (m : MapsData K) : Except Err (MapsData K) :=
  match c with
  | .dichotomy f iterations =>
    match Dichotomy.refinementMethod f iterations v.cv m.invalid m.rowMap m.colMap
        ⟨left.rowDisp.lo, left.rowDisp.hi, left.colDisp.lo, left.colDisp.hi⟩ with
    | .error x => .error x
    | .ok o => assign m o.row o.col o.cost
  | .opticalFlow cfg =>
    match OpticalFlow.refinementMethod e.flow e.junk cfg ⟨v.cv.row, v.cv.col, v.offset, v.stepRow, v.stepCol⟩ m.invalid m.rowMap
        m.colMap left.img right left.rowDisp left.colDisp with
    | .error x => .error x
    | .ok (col, row) => assign m row col m.score
  | .interpolation =>
    match Interpolation.refinementMethod e.interp v.cv m.rowMap m.colMap with
    | .error x => .error x
    | .ok (col, row, score) => assign m row col score
  | _ => .error .keyError

/-- `cfg["pipeline"]["disparity"]["invalid_disparity"]`, state_machine.py 375. -/
def invalidOf (cfg : Pipeline (StepCfg K)) : Except Err (F K) :=
  match lookup cfg "disparity" with
  | .ok (.disparity v) => .ok v
  | .ok _ => .error .keyError
  | .error x => .error x

/-- The maps and the cost volumes after `disp_maps_run`, state_machine.py 354-379 (`compute_disp_maps` may write in the volumes). -/
def dispMaps (cfg : Pipeline (StepCfg K)) (invalid : F K) (v : Volumes K) : Except Err (MapsData K × Volumes K) := do
  let out ← computeDispMaps invalid v.cv
  let attr ← invalidOf cfg
  return (⟨v.cv.row, v.cv.col, out.row, out.col, out.score, attr⟩, { v with cv := { v.cv with data := out.after } })

/-- The callbacks of the run, state_machine.py 298-408. `roi` is the section of the configuration. The left image always has
disparity grids: those of the input section, or placeholders when there is an estimation (img_tools.py 81-85). What
`update_cfg_with_estimation` writes is in `Verif.Estimation.updateCfg`; here only its lookup of the step is kept. -/
def runExec (e : Env K) (roi : Option Roi) : Exec (Attrs K) (StepCfg K) := fun cb cfg s d =>
  match cb with
  | .estimationRun =>
    match lookup cfg s, d.left, d.right with
    | .ok (.estimation rr rc sf), some left, some right =>
      match estimate e rr rc sf left right with
      | .ok l =>
        -- update_cfg_with_estimation writes in cfg["pipeline"]["estimation"]
        match lookup cfg "estimation" with
        | .ok _ => ({ d with left := some l }, none)
        | .error x => ({ d with left := some l }, some x)
      | .error x => (d, some x)
    | .error x, _, _ => (d, some x)
    | _, _, _ => (d, some .attributeError)
  | .matchingCostPrepare =>
    match lookup cfg s with
    | .ok (.matchingCost c o pc) => ({ d with mc := some (c, o, pc) }, none)
    | .ok _ => (d, some .keyError)
    | .error x => (d, some x)
  | .matchingCostRun =>
    match d.mc, d.left, d.right with
    | some (c, o, pc), some left, some right =>
      match computeCostVolumes e.zoom pc c roi left right d.margins with
      | .ok cv => ({ d with volumes := some ⟨cv, o, c.stepRow, c.stepCol⟩ }, none)
      | .error x => (d, some x)
    | _, _, _ => (d, some .attributeError)
  | .dispMapsRun =>
    match lookup cfg s, d.volumes with
    | .ok (.disparity invalid), some v =>
      match dispMaps cfg invalid v with
      | .ok (m, v') => ({ d with maps := some m, volumes := some v' }, none)
      | .error x => (d, some x)
    | .error x, _ => (d, some x)
    | .ok (.disparity _), none => (d, some .keyError)
    | .ok _, _ => (d, some .keyError)
  | .refinementRun =>
    match lookup cfg s, d.left, d.right, d.volumes, d.maps with
    | .ok c, some left, some right, some v, some m =>
      match refine e c left right v m with
      | .ok m' => ({ d with maps := some m' }, none)
      | .error x => (d, some x)
    | .error x, _, _, _, _ => (d, some x)
    | _, _, _, _, _ => (d, some .keyError)
  | _ => (d, none)

/-- `run_prepare`, state_machine.py 139-161. -/
def prepare (left : Left K) (right : Img K) (d : Attrs K) : Attrs K := { d with left := some left, right := some right }

/-- `pandora2d.run`, __init__.py 43-77: the machine after the call, and the maps it holds (`None` for the empty dataset) or the
exception. -/
def run (e : Env K) (roi : Option Roi) (left : Left K) (right : Img K) (cfg : Pipeline (StepCfg K)) (m : Mach (Attrs K)) :
    Mach (Attrs K) × Except Err (Option (MapsData K)) :=
  match runAll (runExec e roi) (prepare left right) cfg m with
  | (m', none) => (m', .ok m'.data.maps)
  | (m', some x) => (m', .error x)

end Verif.Run
