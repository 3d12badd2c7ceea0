import Verif.Py.Array

/-!
# Model of `pandora2d/disparity/disparity.py`

The cost volumes dataset, the winner-takes-all strategy and its memory-saving splits.
-/

namespace Verif.Disparity

open Verif

variable {K : Type}

/-- Pandora's `Margins` (an external dataclass): left, up, right, down. -/
structure Margins where
  left : Nat
  up : Nat
  right : Nat
  down : Nat
deriving DecidableEq, Repr

/-- The dataset built by `MatchingCost.allocate_cost_volumes`, matching_cost.py 175-217: a 4-D variable
`cost_volumes[row, col, disp_col, disp_row]`, its four coordinates and the attributes read here.
The shape of the variable is the one of its coordinates (xarray guarantees it). -/
structure CostVolumes (K : Type) where
  row : Arr1 Int
  col : Arr1 Int
  dispCol : Arr1 K
  dispRow : Arr1 K
  /-- `data r c i j`: row index, column index, column disparity index, row disparity index -/
  data : Nat → Nat → Nat → Nat → F K
  /-- `attrs["disparity_margins"]` -/
  margins : Option Margins
  /-- `attrs["subpixel"]` -/
  subpixel : Nat
  /-- `attrs["type_measure"]` -/
  measure : Measure

/-- The double loop shared by `extrema_split` (disparity.py 86-109), `get_score` (125-147) and `arg_split` (164-187):
rows then columns are split with `np.array_split`, the reduction `g` of each block is written in the output at
`[row_begin : row_begin + cv_row.shape[0], col_begin : col_begin + cv_col.shape[1]]`, and the two counters advance by
the size of the block. The trailing axes are part of the cell type `β`. This is the inner loop (columns), 99-105. -/
def splitCols {β γ : Type} (g : β → γ) (cvRow : Arr2 β) (rowBegin : Nat) (colIdx : List Nat) (out : Arr2 γ) :
    Except Err (Arr2 γ) := do
  let r ← (cvRow.splitCols colIdx).foldlM
    (fun (s : Arr2 γ × Nat) cvCol => do
      let out' ← s.1.write rowBegin cvRow.h s.2 cvCol.w (cvCol.map g)
      return (out', s.2 + cvCol.w)) (out, 0)
  return r.1

/-- Outer loop (rows) of the three split functions, disparity.py 92-107, 132-145, 170-185. -/
def splitLoop {β γ : Type} (g : β → γ) (a : Arr2 β) (rowIdx colIdx : List Nat) (out : Arr2 γ) :
    Except Err (Arr2 γ) := do
  let r ← (a.splitRows rowIdx).foldlM
    (fun (s : Arr2 γ × Nat) cvRow => do
      let out' ← splitCols g cvRow s.2 colIdx s.1
      return (out', s.2 + cvRow.h)) (out, 0)
  return r.1

/-- `np.arange(100, n, 100)` as a list of non negative integers. -/
def arange100 (n : Nat) : List Nat := (arange 100 n 100).map Int.toNat

variable [LinearOrder K]

/-- Array of the surfaces of a 4-D volume: cell `(r, c)` is the function `(i, j) ↦ cost`. -/
abbrev Vol (K : Type) := Arr2 (Nat → Nat → F K)

/-- `Disparity.extrema_split`, disparity.py 70-109, with `extrema_func` = `np.max`/`np.min` (given by `m`) and
`axis = 2` (reduction over the column disparities, `nRed` of them): the result is indexed by the row disparity.
Rows are split at `arange(100, cv_dims[1], 100)`, columns at `arange(100, cv_dims[0], 100)` as in the code.
Reducing an axis of length zero raises in numpy. -/
def extremaSplitCol (m : Measure) (cv : Vol K) (nRed : Nat) : Except Err (Arr2 (Nat → F K)) :=
  if nRed = 0 then .error .valueError
  else splitLoop (fun s j => m.ext ((List.range nRed).map fun i => s i j)) cv (arange100 cv.w) (arange100 cv.h)
    ⟨cv.h, cv.w, fun _ _ _ => .nan⟩

/-- `Disparity.extrema_split` with `axis = 3`: reduction over the `nRed` row disparities, the result is indexed by the
column disparity. -/
def extremaSplitRow (m : Measure) (cv : Vol K) (nRed : Nat) : Except Err (Arr2 (Nat → F K)) :=
  if nRed = 0 then .error .valueError
  else splitLoop (fun s i => m.ext ((List.range nRed).map fun j => s i j)) cv (arange100 cv.w) (arange100 cv.h)
    ⟨cv.h, cv.w, fun _ _ _ => .nan⟩

/-- `Disparity.get_score`, disparity.py 111-147: extremum along the third axis, of length `n`. -/
def getScore (m : Measure) (maps : Arr2 (Nat → F K)) (n : Nat) : Except Err (Arr2 (F K)) :=
  if n = 0 then .error .valueError
  else splitLoop (fun s => m.ext ((List.range n).map s)) maps (arange100 maps.h) (arange100 maps.w)
    ⟨maps.h, maps.w, fun _ _ => .nan⟩

/-- `Disparity.arg_split`, disparity.py 149-187, with `axis = 2` and `np.argmax`/`np.argmin`. -/
def argSplit (m : Measure) (maps : Arr2 (Nat → F K)) (n : Nat) : Except Err (Arr2 Nat) :=
  if n = 0 then .error .valueError
  else splitLoop (fun s => m.arg ((List.range n).map s)) maps (arange100 maps.h) (arange100 maps.w)
    ⟨maps.h, maps.w, fun _ _ => 0⟩

/-- A rectangular window of the two disparity axes of the volume: the basic slices
`[:, :, c0 : c0 + nc, r0 : r0 + nr]`. -/
structure Window where
  c0 : Nat
  nc : Nat
  r0 : Nat
  nr : Nat
deriving DecidableEq, Repr

/-- Slice bounds used by `compute_disp_maps`, disparity.py 204-234: when there are non zero margins they are multiplied
by the subpixel factor, a zero right (resp. down) bound is replaced by minus the size of the axis, and the axes are
sliced by `[left : -right]` and `[up : -down]`; otherwise the whole volume is used. -/
def userWindow (cv : CostVolumes K) : Window :=
  match cv.margins with
  | none => ⟨0, cv.dispCol.n, 0, cv.dispRow.n⟩
  | some mg =>
    if mg = ⟨0, 0, 0, 0⟩ then ⟨0, cv.dispCol.n, 0, cv.dispRow.n⟩
    else
      let left : Int := mg.left * cv.subpixel
      let up : Int := mg.up * cv.subpixel
      let right₀ : Int := mg.right * cv.subpixel
      let down₀ : Int := mg.down * cv.subpixel
      let right : Int := if right₀ = 0 then -(cv.dispCol.n : Int) else right₀
      let down : Int := if down₀ = 0 then -(cv.dispRow.n : Int) else down₀
      ⟨sliceStart cv.dispCol.n left, sliceLen cv.dispCol.n left (-right),
       sliceStart cv.dispRow.n up, sliceLen cv.dispRow.n up (-down)⟩

/-- Whether `cost_volumes_user` shares its storage with the argument: it is a view when margins are trimmed
(disparity.py 218-233), a deep copy otherwise (235). -/
def isView (cv : CostVolumes K) : Bool :=
  match cv.margins with
  | none => false
  | some mg => mg ≠ ⟨0, 0, 0, 0⟩

/-- The volume seen through a window (`cost_volumes_user["cost_volumes"].data`). -/
def view (cv : CostVolumes K) (data : Nat → Nat → Nat → Nat → F K) (w : Window) : Vol K where
  h := cv.row.n
  w := cv.col.n
  get := fun r c i j => data r c (w.c0 + i) (w.r0 + j)

/-- `cost_volumes_user["cost_volumes"].data[indices_nan] = v` performed through the window on the storage `data`,
where `mask` is indexed by the window. -/
def setWhere (cv : CostVolumes K) (data : Nat → Nat → Nat → Nat → F K) (w : Window)
    (mask : Nat → Nat → Nat → Nat → Bool) (v : F K) : Nat → Nat → Nat → Nat → F K :=
  fun r c i j =>
    if r < cv.row.n ∧ c < cv.col.n ∧ w.c0 ≤ i ∧ i < w.c0 + w.nc ∧ w.r0 ≤ j ∧ j < w.r0 + w.nr
        ∧ mask r c (i - w.c0) (j - w.r0) then v
    else data r c i j

/-- The three maps returned by `compute_disp_maps` and the state of the caller's volume after the call. -/
structure DispOut (K : Type) where
  col : Arr2 (F K)
  row : Arr2 (F K)
  score : Arr2 (F K)
  after : Nat → Nat → Nat → Nat → F K

/-- `np.all(indices_nan, axis=(2, 3))`, disparity.py 271. -/
def allNaN (w : Window) (mask : Nat → Nat → Nat → Nat → Bool) (r c : Nat) : Bool :=
  (List.range w.nc).all fun i => (List.range w.nr).all fun j => mask r c i j

/-- `Disparity.compute_disp_maps`, disparity.py 189-282. `invalid` is `self._invalid_disparity`.
The branches "max" and "min" of the code differ by the infinity and by the reduction function only and are merged with
the parameter `cv.measure`. -/
def computeDispMaps (invalid : F K) (cv : CostVolumes K) : Except Err (DispOut K) := do
  let w := userWindow cv
  let m := cv.measure
  -- 237: indices_nan
  let mask : Nat → Nat → Nat → Nat → Bool := fun r c i j => ((view cv cv.data w).get r c i j).isNaN
  -- 242 / 258: NaN become the worst infinity, in the storage of the view or of the copy
  let data₁ := setWhere cv cv.data w mask m.worst
  let user := view cv data₁ w
  -- 245-247: row map
  let mapsCol ← extremaSplitCol m user w.nc
  let rowIdx ← argSplit m mapsCol w.nr
  -- 250-252: column map
  let mapsRow ← extremaSplitRow m user w.nr
  let colIdx ← argSplit m mapsRow w.nc
  -- 254: score
  let score ← getScore m mapsRow w.nc
  -- 271-272
  let bad := allNaN w mask
  let data₂ := setWhere cv data₁ w mask .nan
  -- 274-280: the maps take the invalid value where all the costs are NaN
  return {
    col := ⟨colIdx.h, colIdx.w, fun r c => if bad r c then invalid else .fin (cv.dispCol.get (w.c0 + colIdx.get r c))⟩
    row := ⟨rowIdx.h, rowIdx.w, fun r c => if bad r c then invalid else .fin (cv.dispRow.get (w.r0 + rowIdx.get r c))⟩
    score := ⟨score.h, score.w, fun r c => if bad r c then invalid else score.get r c⟩
    after := if isView cv then data₂ else cv.data }

end Verif.Disparity
