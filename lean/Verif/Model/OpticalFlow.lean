import Verif.Model.ImgTools
import Verif.Model.Disparity
import Verif.Model.Common
import Mathlib.Algebra.Order.Floor.Ring

/-!
# Model of `pandora2d/refinement/optical_flow.py`

External functions are parameters: `np.linalg.lstsq` and `scipy.ndimage.map_coordinates`. The windows are arrays
`window_size × window_size`; the third axis of the code, `nbcol * nbrow`, is a function of its index.
-/

namespace Verif.OpticalFlow

open Verif Verif.ImgTools Verif.Disparity

/-- `np.searchsorted(a, v, side="left")` of a sorted array: number of the elements smaller than `v`. -/
def searchLeft (a : Arr1 Int) (v : Int) : Nat := (List.range a.n).countP fun i => decide (a.get i < v)

/-- `np.searchsorted(a, v, side="right")` of a sorted array: number of the elements smaller than or equal to `v`. -/
def searchRight (a : Arr1 Int) (v : Int) : Nat := (List.range a.n).countP fun i => decide (a.get i ≤ v)

/-- `find_nearest_column(v, data, "+")`, 309-310. -/
def nearestUp (a : Arr1 Int) (v : Int) : Except Err Int :=
  if searchLeft a v < a.n then .ok (a.get (searchLeft a v)) else .error .indexError

/-- `find_nearest_column(v, data, "-")`, 311-312; index -1 is the last element. -/
def nearestDown (a : Arr1 Int) (v : Int) : Except Err Int :=
  if a.n = 0 then .error .indexError
  else if searchRight a v = 0 then .ok (a.get (a.n - 1))
  else .ok (a.get (searchRight a v - 1))

/-- The two extrema of an axis, 343-356. -/
def extrema (a : Arr1 Int) (offset : Nat) : Except Err (Int × Int) :=
  if a.n = 0 then .error .indexError
  else do
    let lo ← nearestUp a (a.get 0 + offset)
    let hi ← nearestDown a (a.get (a.n - 1) - offset)
    return (lo, hi)

/-- `.sel(axis=slice(lo, hi))` of an increasing index: start and length of the block of labels between the two bounds,
both included. -/
def labelSlice (a : Arr1 Int) (lo hi : Int) : Nat × Nat := (searchLeft a lo, searchRight a hi - searchLeft a lo)

/-- Coordinates of an axis of an image. -/
def imgAxis (c0 : Int) (n : Nat) : Arr1 Int := ⟨n, fun k => c0 + k⟩

variable {K : Type}

/-- Matching cost window. -/
abbrev Win (K : Type) := Arr2 (F K)

/-- `patch_dict`, 143: the position of a key; a later position replaces an earlier one. -/
def lastIdx (get : Nat → Int) (key : Int) : Nat → Option Nat
  | 0 => none
  | n + 1 => if get n = key then some n else lastIdx get key n

/-- Keys `int(c_row * img.sizes["col"]) + c_col`, rows outside, columns inside, 136-140 and 144. -/
def patchKey (w : Nat) (rows cols : Arr1 Int) (k : Nat) : Int :=
  rows.get (k / cols.n) * w + cols.get (k % cols.n)

/-- Patch number `k` of `sliding_window_view(...).reshape(-1, ws, ws)`, 132-133. -/
def patchOf (img : Img K) (ws k : Nat) : Win K :=
  ⟨ws, ws, fun i j => img.im (k / (img.w - ws + 1) + i) (k % (img.w - ws + 1) + j)⟩

/-- `reshape_to_matching_cost_window` for the left image, 130-151. The result is the list of the kept windows.
`sliding_window_view` raises when the window is larger than the image, `np.stack` when the list is empty. -/
def reshapeLeft (img : Img K) (ws offset : Nat) (rows cols : Arr1 Int) : Except Err (List (Win K)) :=
  if img.h < ws ∨ img.w < ws then .error .valueError
  else
    let ir := (imgAxis img.row0 img.h).slice offset (-(offset : Int))
    let ic := (imgAxis img.col0 img.w).slice offset (-(offset : Int))
    if (img.h - ws + 1) * (img.w - ws + 1) < ir.n * ic.n then .error .indexError
    else
      let kept := (List.range (rows.n * cols.n)).filterMap fun k =>
        lastIdx (patchKey img.w ir ic) (patchKey img.w rows cols k) (ir.n * ic.n)
      if kept = [] then .error .valueError
      else .ok (kept.map (patchOf img ws))

/-- Window of `img` with labels from `r - offset` to `r + offset`, 173-182: NaN when it is truncated by the border. -/
def patchAt (img : Img K) (ws : Nat) (r c : Int) : Win K :=
  let off : Nat := ws / 2
  let sr := labelSlice (imgAxis img.row0 img.h) (r - off) (r + off)
  let sc := labelSlice (imgAxis img.col0 img.w) (c - off) (c + off)
  if sr.2 = ws ∧ sc.2 = ws then ⟨ws, ws, fun i j => img.im (sr.1 + i) (sc.1 + j)⟩
  else ⟨ws, ws, fun _ _ => .nan⟩

section arith
variable [Field K] [LinearOrder K]

/-- `a - b` on floats. -/
def fsub (a b : F K) : F K := F.add a (F.neg b)

/-- `abs` on floats. -/
def fabs : F K → F K
  | .nan => .nan
  | .ninf => .pinf
  | .pinf => .pinf
  | .fin k => .fin |k|

/-- `np.gradient` along one axis of length `n ≥ 2`: one-sided at the two ends, centred elsewhere. -/
def gradient1 (n : Nat) (g : Nat → F K) (i : Nat) : F K :=
  if i = 0 then fsub (g 1) (g 0)
  else if i + 1 = n then fsub (g (n - 1)) (g (n - 2))
  else F.mul (fsub (g (i + 1)) (g (i - 1))) (.fin (1 / 2))

/-- Position of the cells of a window in `flatten()` order. -/
def cellsOf (w : Win K) : List (Nat × Nat) :=
  (List.range (w.h * w.w)).map fun k => (k / w.w, k % w.w)

/-- `grad_matrix`, 233-237: rows `(grad_x, grad_y)`. -/
def gradMatrix (left : Win K) : List (F K × F K) :=
  (cellsOf left).map fun p =>
    (gradient1 left.w (fun j => left.get p.1 j) p.2, gradient1 left.h (fun i => left.get i p.2) p.1)

/-- `time_matrix`, 234 and 238. -/
def timeMatrix (left right : Win K) : List (F K) :=
  (cellsOf left).map fun p => fsub (right.get p.1 p.2) (left.get p.1 p.2)

/-- External functions: `np.linalg.lstsq` (`none` is LinAlgError; the result is `(x, y)`) and `map_coordinates` of a window with the
shifts of 208-210 (rows, columns). -/
structure Ext (K : Type) where
  lstsq : List (F K × F K) → List (F K) → Option (F K × F K)
  warp : Win K → F K → F K → Win K

/-- `lucas_kanade_core_algorithm`, 221-249: (row, column). -/
def lucasKanade (e : Ext K) (invalid : F K) (left right : Win K) : F K × F K :=
  let motion := (e.lstsq (gradMatrix left) (timeMatrix left right)).getD (invalid, invalid)
  (motion.2, motion.1)

/-- State of the loop of `optical_flow`: `final_dec_row`, `final_dec_col`, `new_list_to_compute`. -/
structure Flow (K : Type) where
  row : Nat → F K
  col : Nat → F K
  kept : List Nat

/-- Body of the loop of `optical_flow`, 276-293. -/
def flowBody (motion : Nat → F K × F K) (s : Flow K) (idx : Nat) : Flow K :=
  let m := motion idx
  let small := F.lt (fabs m.2) (.fin 1) && F.lt (fabs m.1) (.fin 1)
  let c := if small then m.2 else if F.lt (.fin 1) (fabs m.2) then .fin 0 else m.2
  let r := if small then m.1 else if F.lt (.fin 1) (fabs m.1) then .fin 0 else m.1
  ⟨fun k => if k = idx then r else s.row k, fun k => if k = idx then c else s.col k,
    if small then s.kept ++ [idx] else s.kept⟩

/-- `optical_flow`, 251-295. -/
def opticalFlow (e : Ext K) (invalid : F K) (left right : Nat → Win K) (idxs : List Nat) : Flow K :=
  idxs.foldl (flowBody fun i => lucasKanade e invalid (left i) (right i)) ⟨fun _ => .fin 0, fun _ => .fin 0, []⟩

/-- `warped_img`, 189-219. `np.empty_like` leaves unknown values, `junk`, at the other indices. -/
def warped (e : Ext K) (junk : Nat → Win K) (right : Nat → Win K) (f : Flow K) : Nat → Win K :=
  fun k => if k ∈ f.kept then e.warp (right k) (f.row k) (f.col k) else junk k

/-- State of the loop of `refinement_method`. -/
structure Loop (K : Type) where
  row : Nat → F K
  col : Nat → F K
  right : Nat → Win K
  idxs : List Nat

/-- One iteration, 383-393. -/
def iterate (e : Ext K) (invalid : F K) (junk : Nat → Win K) (left : Nat → Win K) (s : Loop K) : Loop K :=
  let f := opticalFlow e invalid left s.right s.idxs
  ⟨fun k => fsub (s.row k) (f.row k), fun k => fsub (s.col k) (f.col k), warped e junk s.right f, f.kept⟩

/-- `for _ in range(self._iterations)`, 383-393; `junk n` are the unknown values when `n` iterations remain. -/
def iterations (e : Ext K) (invalid : F K) (junk : Nat → Nat → Win K) (left : Nat → Win K) : Nat → Loop K → Loop K
  | 0, s => s
  | n + 1, s => iterations e invalid junk left n (iterate e invalid (junk n) left s)

/-- `_invalid_out_of_grid_disparities`, 420-433. Comparing arrays of different shapes raises (the broadcast of an axis of
length one is not modelled). -/
def invalidOutOfGrid (invalid : F K) (stepRow stepCol : Nat) (lo hi : Arr2 Int) (delta : Arr2 (F K)) :
    Except Err (Arr2 (F K)) :=
  let ok := fun (g : Arr2 Int) => (g.h + stepRow - 1) / stepRow = delta.h ∧ (g.w + stepCol - 1) / stepCol = delta.w
  if ok lo ∧ ok hi then
    .ok (let d1 : Nat → Nat → F K := fun r c =>
          if F.le (delta.get r c) (.fin (lo.get (r * stepRow) (c * stepCol) : K)) then invalid else delta.get r c
         ⟨delta.h, delta.w, fun r c =>
          if F.le (.fin (hi.get (r * stepRow) (c * stepCol) : K)) (d1 r c) then invalid else d1 r c⟩)
  else .error .valueError

/-- `np.pad(delta.reshape([nr, nc]), ...)`, 400-417: `reshape` raises when the sizes differ, `np.pad` when a width is negative. -/
def padded (invalid : F K) (h w size nr nc : Nat) (delta : Nat → F K) : Except Err (Arr2 (F K)) :=
  if nr * nc ≠ size then .error .valueError
  else if h < nr ∨ w < nc then .error .valueError
  else
    let top := (h - nr) / 2
    let left := (w - nc) / 2
    .ok ⟨h, w, fun r c =>
      if top ≤ r ∧ r < top + nr ∧ left ≤ c ∧ c < left + nc then delta ((r - top) * nc + (c - left)) else invalid⟩

section floor
variable [FloorRing K]

/-- Python `int(x)`: truncation toward zero. -/
def trunc (x : K) : Int := if 0 ≤ x then ⌊x⌋ else ⌈x⌉

/-- `shift_col`, `shift_row`, 168-169; `int` of an infinity raises OverflowError (written `valueError`). -/
def shiftOf (invalid d : F K) : Except Err Int :=
  if d.isNaN || F.eq d invalid then .ok 0
  else match d with
    | .fin x => .ok (trunc x)
    | _ => .error .valueError

/-- Window of the right image for one pixel, 166-185. -/
def rightPatch (invalid : F K) (img : Img K) (ws : Nat) (row col : Int) (dispRow dispCol : F K) : Except Err (Win K) :=
  match shiftOf invalid dispCol with
  | .error e => .error e
  | .ok sc =>
    match shiftOf invalid dispRow with
    | .error e => .error e
    | .ok sr => .ok (patchAt img ws (row + sr) (col + sc))

/-- `reshape_to_matching_cost_window` for the right image, 154-187. -/
def reshapeRight (invalid : F K) (img : Img K) (ws : Nat) (rows cols : Arr1 Int) (dispRow dispCol : Nat → F K) :
    Except Err (List (Win K)) :=
  (List.range (rows.n * cols.n)).mapM fun k =>
    rightPatch invalid img ws (rows.get (k / cols.n)) (cols.get (k % cols.n)) (dispRow k) (dispCol k)

/-- Attributes and coordinates of the cost volumes used here. -/
structure CostCoords where
  row : Arr1 Int
  col : Arr1 Int
  offset : Nat
  stepRow : Nat
  stepCol : Nat

/-- `a[start : start + len]` of a coordinate. -/
def Arr1.sub (a : Arr1 Int) (s : Nat × Nat) : Arr1 Int := ⟨s.2, fun k => a.get (s.1 + k)⟩

/-- `nb_valid_points_row`, `nb_valid_points_col`, 396-397 (the extrema are ordered when this is reached). -/
def nbValid (x : Int × Int) (step : Nat) : Nat := ((x.2 - x.1) / (step : Int) + 1).toNat

/-- The configuration of the method. -/
structure Cfg where
  windowSize : Nat
  iterations : Nat

/-- `OpticalFlow.margins`, 93-95: the values `window_size // 2 * step_row`, `window_size // 2 * step_col`, twice, given to
`Margins(left, up, right, down)`. -/
def margins (windowSize stepRow stepCol : Nat) : Margins :=
  ⟨windowSize / 2 * stepRow, windowSize / 2 * stepCol, windowSize / 2 * stepRow, windowSize / 2 * stepCol⟩

/-- `default` window, for the indices out of the lists. -/
def noWin : Win K := ⟨0, 0, fun _ _ => .nan⟩

/-- `refinement_method`, 317-418: (delta_col, delta_row); the score returned is the one of the disparity map, unchanged.
The disparity maps have the coordinates of the cost volumes. The subtraction of 391-392 raises when the left and right lists differ
in length. -/
def refinementMethod (e : Ext K) (junk : Nat → Nat → Win K) (cfg : Cfg) (cv : CostCoords) (invalid : F K)
    (rowMap colMap : Arr2 (F K)) (left right : Img K) (rowDisp colDisp : MinMax) :
    Except Err (Arr2 (F K) × Arr2 (F K)) := do
  let xc ← extrema cv.col cv.offset
  let xr ← extrema cv.row cv.offset
  let sr := labelSlice cv.row xr.1 xr.2
  let sc := labelSlice cv.col xc.1 xc.2
  let rows := Arr1.sub cv.row sr
  let cols := Arr1.sub cv.col sc
  let dRow : Nat → F K := fun k => rowMap.get (sr.1 + k / cols.n) (sc.1 + k % cols.n)
  let dCol : Nat → F K := fun k => colMap.get (sr.1 + k / cols.n) (sc.1 + k % cols.n)
  let lw ← reshapeLeft left cfg.windowSize cv.offset rows cols
  let rw ← reshapeRight invalid right cfg.windowSize rows cols dRow dCol
  if lw.length ≠ rw.length then .error .valueError
  else
    let s := iterations e invalid junk (fun k => lw.getD k noWin) cfg.iterations
      ⟨dRow, dCol, fun k => rw.getD k noWin, List.range lw.length⟩
    let nr := nbValid xr cv.stepRow
    let nc := nbValid xc cv.stepCol
    let pc ← padded invalid rowMap.h rowMap.w (rows.n * cols.n) nr nc s.col
    let pr ← padded invalid rowMap.h rowMap.w (rows.n * cols.n) nr nc s.row
    let oc ← invalidOutOfGrid invalid cv.stepRow cv.stepCol colDisp.lo colDisp.hi pc
    let or ← invalidOutOfGrid invalid cv.stepRow cv.stepCol rowDisp.lo rowDisp.hi pr
    return (oc, or)

end floor
end arith
end Verif.OpticalFlow
