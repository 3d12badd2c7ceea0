import Verif.Model.Pandora
import Verif.Model.Common
import Verif.Model.Disparity

/-!
# Model of `pandora2d/matching_cost/matching_cost.py`
-/

namespace Verif.MatchingCost

open Verif Verif.ImgTools Verif.Disparity

/-- Parameters of the matching cost step: subpixel factor, `step = [row, col]`, type of the measure. -/
structure Cfg where
  subpix : Nat
  stepRow : Nat
  stepCol : Nat
  measure : Measure

/-- Left dataset: image, row and column disparity grids with their sources. -/
structure Left (K : Type) where
  img : Img K
  colDisp : MinMax
  rowDisp : MinMax

variable {K : Type} [Field K] [LinearOrder K] [IsStrictOrderedRing K] [FloorRing K]

/-- `int((disp_row % 1) * self._subpix)`, matching_cost.py 342. -/
def iRight (d : K) (s : Nat) : Nat := ⌊Int.fract d * (s : K)⌋.toNat

/-- Margin given to `get_coordinates` for the columns, `min(margins[0], col.first)`, matching_cost.py 252-258. -/
def colMargin (roi : Option Roi) : Option Int := roi.map fun r => min r.margins.left r.colFirst

/-- Margin given to `get_coordinates` for the rows, `min(margins[1], row.first)`, matching_cost.py 273-282. -/
def rowMargin (roi : Option Roi) : Option Int := roi.map fun r => min r.margins.up r.rowFirst

/-- Row coordinates of the cost volumes, matching_cost.py 376-391. -/
def rowCoords (roi : Option Roi) (row0 : Int) (h step : Nat) : Arr1 Int :=
  match rowMargin roi with
  | none => arangeA row0 (row0 + h) step
  | some m => Pandora.getCoordinates m row0 h step

/-- `grid - margin` / `grid + margin` on the copies of the grids, matching_cost.py 322-326. -/
def shiftGrid (g : Arr2 Int) (d : Int) : Arr2 Int := ⟨g.h, g.w, fun r c => g.get r c + d⟩

/-- The volume being filled: `data[:, :, :, idx] = cost_volume.data[row_index, :, :]`, matching_cost.py 339-402, one
iteration of the loop. `imgs` are the resampled right images. Selecting a row which is not in the image raises
`IndexError`, so does selecting a resampled image which does not exist. -/
def slabStep (pc : Pandora.Cost K) (left : Img K) (imgs : List (Img K)) (s : Nat) (gminC gmaxC : Arr2 Int)
    (rows cols : Arr1 Int) (dispsCol dispsRow : Arr1 K) (data : Arr4 (F K)) (idx : Nat) : Except Err (Arr4 (F K)) := do
  let d := dispsRow.get idx
  let img ← match imgs[iRight d s]? with
    | some x => pure x
    | none => throw .indexError
  let shifted := shiftDispRow img ⌊d⌋
  let rowIndex : Nat → Int := fun r => rows.get r - left.row0
  if (List.range rows.n).all (fun r => decide (-(left.h : Int) ≤ rowIndex r ∧ rowIndex r < left.h)) then
    return { data with
      get := fun r c i j =>
        if j = idx then
          let ri := if rowIndex r < 0 then rowIndex r + left.h else rowIndex r
          pc left shifted gminC gmaxC ri.toNat (cols.get c - left.col0).toNat (dispsCol.get i)
        else data.get r c i j }
  else throw .indexError

/-- `MatchingCost.compute_cost_volumes`, matching_cost.py 284-425, with the allocation of the Pandora grid 219-282.
`roi` is the `ROI` section of the configuration given to `allocate_cost_volume_pandora` (margins updated by
`get_roi_processing`). When there is no row disparity the loop does not run and the deletion of an attribute raises
`KeyError` (405). The grids are converted to the type of the disparities (numpy comparison of floats and integers). -/
def computeCostVolumes (z : Zoom K) (pc : Pandora.Cost K) (cfg : Cfg) (roi : Option Roi) (left : Left K) (right : Img K)
    (margins : Option Margins) : Except Err (CostVolumes K) := do
  let mg := margins.getD ⟨0, 0, 0, 0⟩
  let gminC := shiftGrid left.colDisp.lo (-mg.left)
  let gmaxC := shiftGrid left.colDisp.hi mg.right
  let gminR := shiftGrid left.rowDisp.lo (-mg.up)
  let gmaxR := shiftGrid left.rowDisp.hi mg.down
  let (minRow, maxRow) := Pandora.minMaxFromGrid gminR gmaxR
  let (minCol, maxCol) := Pandora.minMaxFromGrid gminC gmaxC
  let dispsCol : Arr1 K := Pandora.disparityRange minCol maxCol cfg.subpix
  let dispsRow : Arr1 K := Pandora.disparityRange minRow maxRow cfg.subpix
  let imgs ← shiftSubpix z right cfg.subpix
  let rows := rowCoords roi left.img.row0 left.img.h cfg.stepRow
  let cols := Pandora.colCoordinates (colMargin roi) left.img.col0 left.img.w cfg.stepCol
  if dispsRow.n = 0 then throw .keyError
  -- np.zeros, 200
  let init : Arr4 (F K) := ⟨rows.n, cols.n, dispsCol.n, dispsRow.n, fun _ _ _ _ => .fin 0⟩
  let filled ← (List.range dispsRow.n).foldlM
    (slabStep pc left.img imgs cfg.subpix gminC gmaxC rows cols dispsCol dispsRow) init
  let castG : Arr2 Int → Arr2 K := fun g => ⟨g.h, g.w, fun r c => (g.get r c : K)⟩
  let castS : Int × Int → Option (K × K) := fun s => some ((s.1 : K), (s.2 : K))
  let m1 ← Common.setOutOfRow filled dispsRow (castG left.rowDisp.lo) (castG left.rowDisp.hi) .nan
    (castS left.rowDisp.src)
  let m2 ← Common.setOutOfCol m1 dispsCol (castG left.colDisp.lo) (castG left.colDisp.hi) .nan (castS left.colDisp.src)
  return {
    row := rows
    col := cols
    dispCol := dispsCol
    dispRow := dispsRow
    data := m2.get
    margins := margins
    subpixel := cfg.subpix
    measure := cfg.measure }

end Verif.MatchingCost
