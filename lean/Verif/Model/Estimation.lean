import Verif.Model.Config
import Verif.Model.ImgTools
import Mathlib.Data.Rat.Floor

/-!
# Model of the estimation step

`pandora2d/estimation/phase_cross_correlation.py`, `pandora2d/estimation/estimation.py` and `estimation_run` of
`pandora2d/state_machine.py`. The correlation itself (scikit-image) is external: its result, the shifts, is a parameter.
-/

namespace Verif.Estimation

open Verif Verif.Config Verif.ImgTools

/-- Python `round(x)`: nearest integer, ties to the even one. -/
def pyRound (x : Rat) : Int :=
  let f := ⌊x⌋
  let r := x - f
  if r < 1 / 2 then f
  else if 1 / 2 < r then f + 1
  else if f % 2 = 0 then f else f + 1

/-- `round` of a float: NaN raises ValueError, an infinity raises OverflowError (also written `valueError` here). -/
def roundF : F Rat → Except Err Int
  | .fin q => .ok (pyRound q)
  | _ => .error .valueError

/-- `-x` on floats. -/
def negF : F Rat → F Rat
  | .nan => .nan
  | .ninf => .pinf
  | .pinf => .ninf
  | .fin q => .fin (-q)

/-- Result of `compute_estimation`. -/
structure Estimated where
  row : Disp
  col : Disp
  shifts : F Rat × F Rat

/-- `compute_estimation`, phase_cross_correlation.py 93-128, from the shifts given by scikit-image (rows, columns). -/
def computeEstimation (shifts : F Rat × F Rat) (rangeRow rangeCol : Int) : Except Err Estimated := do
  let r ← roundF (negF shifts.1)
  let c ← roundF (negF shifts.2)
  return ⟨⟨.const r, rangeRow⟩, ⟨.const c, rangeCol⟩, (negF shifts.1, negF shifts.2)⟩

/-- The dictionary `{"init": i, "range": r}`. -/
def dispDict (i r : Int) : J := .obj (.cons "init" (.int i) (.cons "range" (.int r) .nil))

/-- `f[k]` modified in place, `f[k]` being a dictionary. -/
def modifyIn (f : Fields) (k : String) (h : Fields → Fields) : Except Err Fields :=
  match f.get k with
  | none => .error .keyError
  | some (.obj g) => .ok (f.set k (.obj (h g)))
  | some _ => .error .typeError

/-- `update_cfg_with_estimation`, estimation.py 125-153. `error` and `phase_diff` are the extra values. The configuration is
modified in place: the result is also the caller's configuration. -/
def updateCfg (cfg : Fields) (col row : J) (shifts : F Rat × F Rat) (error phaseDiff : J) : Except Err Fields := do
  let cfg ← modifyIn cfg "input" fun i => (i.set "col_disparity" col).set "row_disparity" row
  match cfg.get "pipeline" with
  | some (.obj pl) =>
    let pl ← modifyIn pl "estimation" fun e =>
      ((e.set "estimated_shifts" (.arr (.cons (.float shifts.1) (.cons (.float shifts.2) .nil)))).set "error" error).set
        "phase_diff" phaseDiff
    return cfg.set "pipeline" (.obj pl)
  | some _ => .error .typeError
  | none => .error .keyError

/-- `estimation_run`, state_machine.py 315-335: the disparity grids given to the left image (of `h` rows and `w` columns, first
coordinates `row0`, `col0`) and the configuration. `rangeRow`, `rangeCol` come from the checked configuration. -/
def estimationRun (shifts : F Rat × F Rat) (error phaseDiff : J) (rangeRow rangeCol : Int) (row0 col0 : Int) (h w : Nat)
    (cfg : Fields) : Except Err (MinMax × MinMax × Fields) := do
  let e ← computeEstimation shifts rangeRow rangeCol
  let rowGrid ← getMinMax row0 col0 h w e.row false
  let colGrid ← getMinMax row0 col0 h w e.col false
  let ri := match e.row.init with | .const i => i | .grid _ => 0
  let ci := match e.col.init with | .const i => i | .grid _ => 0
  let cfg ← updateCfg cfg (dispDict ci rangeCol) (dispDict ri rangeRow) e.shifts error phaseDiff
  return (rowGrid, colGrid, cfg)

end Verif.Estimation
