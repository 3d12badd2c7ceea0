import Verif.Py.Array
import Mathlib.Algebra.Order.Floor.Ring

/-!
# Model of `pandora2d/img_tools.py`
-/

namespace Verif.ImgTools

open Verif

/-! ## Disparity grids -/

/-- `disparity["init"]`: an integer or the raster read from a grid file of a single band. Simplification: the values of the raster are
integers (the code does not check it). -/
inductive Init where
  | const (i : Int)
  | grid (g : Arr2 Int)

/-- A disparity dictionary `{"init": …, "range": …}`. -/
structure Disp where
  init : Init
  range : Int

/-- `pow(-1, right)`. -/
def sgn (right : Bool) : Int := if right then -1 else 1

/-- Minimum of the values of a non empty list (`np.min`). -/
def minOf : List Int → Int
  | [] => 0
  | x :: xs => xs.foldl min x

/-- Maximum of the values of a non empty list (`np.max`). -/
def maxOf : List Int → Int
  | [] => 0
  | x :: xs => xs.foldl max x

/-- Values of a grid in row-major order. -/
def gridVals (g : Arr2 Int) : List Int :=
  (List.range g.h).flatMap fun r => (List.range g.w).map fun c => g.get r c

/-- Bands "min" and "max" of the disparity variable, and the `…_disparity_source` attribute. -/
structure MinMax where
  lo : Arr2 Int
  hi : Arr2 Int
  src : Int × Int

/-- `get_min_max_disp_from_dicts`, img_tools.py 192-242, together with the storage in the dataset of `add_disparity_grid`
(177-189). `row0`, `col0`, `h`, `w` describe the coordinates of the dataset (`row0, …, row0 + h - 1`).
Grid branch: the raster is cropped by `[rows[0] : rows[-1] + 1, cols[0] : cols[-1] + 1]`; `np.min` raises on an empty crop;
`np.squeeze` removes the axes of length one, then `xr.DataArray` refuses data which has not three dimensions, and the
assignment refuses a crop which has not the size of the image. -/
def getMinMax (row0 col0 : Int) (h w : Nat) (d : Disp) (right : Bool) : Except Err MinMax :=
  match d.init with
  | .const i =>
    let lo := i * sgn right - d.range
    let hi := i * sgn right + d.range
    .ok ⟨⟨h, w, fun _ _ => lo⟩, ⟨h, w, fun _ _ => hi⟩, (lo, hi)⟩
  | .grid g =>
    let h' := sliceLen g.h row0 (row0 + h)
    let w' := sliceLen g.w col0 (col0 + w)
    let r0 := sliceStart g.h row0
    let c0 := sliceStart g.w col0
    let lo : Arr2 Int := ⟨h', w', fun r c => g.get (r0 + r) (c0 + c) * sgn right - d.range⟩
    let hi : Arr2 Int := ⟨h', w', fun r c => g.get (r0 + r) (c0 + c) * sgn right + d.range⟩
    if h' = 0 ∨ w' = 0 then .error .valueError
    else if h' = 1 ∨ w' = 1 then .error .valueError
    else if h' ≠ h ∨ w' ≠ w then .error .valueError
    else .ok ⟨lo, hi, (minOf (gridVals lo), maxOf (gridVals hi))⟩

/-! ## Images -/

/-- An image dataset: `im`, `msk` (when present), coordinates `row0 …` and `col0 …`, attributes. -/
structure Img (K : Type) where
  h : Nat
  w : Nat
  row0 : Int
  col0 : Int
  im : Nat → Nat → F K
  msk : Option (Nat → Nat → Int)
  noData : F K
  validPixels : Int
  noDataMask : Int

section
variable {K : Type} [Field K] [LinearOrder K]

/-- `shift_disp_row_img`, img_tools.py 245-281. `scipy.ndimage.shift(im, (-d, 0), cval=no_data)` is idealised: for an
integer shift the spline goes through the samples, so row `r` of the result is row `r + d` of the input when it exists
and `no_data` otherwise. The mask is rebuilt from the equality with `no_data` (265-279); the input mask is not read. -/
def shiftDispRow (img : Img K) (d : Int) : Img K :=
  let data : Nat → Nat → F K := fun r c =>
    if 0 ≤ (r : Int) + d ∧ (r : Int) + d < img.h then img.im ((r : Int) + d).toNat c else img.noData
  { img with
    im := data
    msk := some fun r c => if F.eq (data r c) img.noData then 1 else 0
    validPixels := 0
    noDataMask := 1 }

/-- A resampling method: `zoom img s k c` is the value at row `k`, column `c` of
`scipy.ndimage.zoom(im, ((ny * subpix - (subpix - 1)) / ny, 1), order)`, an image of `ny * subpix - (subpix - 1)` rows whose
row `k` samples the position `k / subpix`. External, kept as a parameter. -/
abbrev Zoom (K : Type) := Img K → Nat → Nat → Nat → F K

/-- The default `order=1` of the zoom, idealised: linear interpolation of the rows at position `k / subpix`. -/
def zoomLinear : Zoom K := fun img s k c =>
  if k % s = 0 then img.im (k / s) c
  else F.add (F.mul (.fin (1 - ((k % s : Nat) : K) / (s : K))) (img.im (k / s) c))
        (F.mul (.fin (((k % s : Nat) : K) / (s : K))) (img.im (k / s + 1) c))

/-- Number of rows selected by `[ind::subpix]` in the zoomed image, img_tools.py 418. -/
def zoomCount (h s ind : Nat) : Nat := (h * s - (s - 1) - ind + (s - 1)) / s

/-- `row_zoom_img`, img_tools.py 391-433, for index `ind`: one row of the zoomed image out of `subpix` from `ind` on
(418), then one row of `no_data` (423). The number of rows of the result must be the number of row coordinates
`np.arange(row[0] + ind / subpix, row[-1] + 1)`, that is `h`, for xarray to accept it (425-433); `ValueError` otherwise.
`shift_subpix_img` gives the attributes of the input to the result (508, 521). -/
def rowZoom (z : Zoom K) (img : Img K) (s ind : Nat) : Except Err (Img K) :=
  let cnt := zoomCount img.h s ind
  if cnt + 1 = img.h then
    .ok { img with
      im := fun t c => if t < cnt then z img s (ind + t * s) c else img.noData
      msk := none }
  else .error .valueError

/-- `shift_subpix_img`, img_tools.py 480-524 (`row=True`): the list of the original image followed by the images
resampled by `ind / subpix`, `ind = 1 … subpix - 1`. -/
def shiftSubpix (z : Zoom K) (img : Img K) (s : Nat) : Except Err (List (Img K)) := do
  let l ← (List.range (s - 1)).mapM fun k => rowZoom z img s (k + 1)
  return img :: l

/-- The zoom of `col_zoom_img`, `scipy.ndimage.zoom(im, (1, (nx * subpix - (subpix - 1)) / nx), order=1)`, idealised: linear
interpolation of the columns at position `k / subpix`. -/
def zoomLinearCol (img : Img K) (s r k : Nat) : F K :=
  if k % s = 0 then img.im r (k / s)
  else F.add (F.mul (.fin (1 - ((k % s : Nat) : K) / (s : K))) (img.im r (k / s)))
        (F.mul (.fin (((k % s : Nat) : K) / (s : K))) (img.im r (k / s + 1)))

/-- `col_zoom_img`, img_tools.py 436-477, for index `ind`, with the default order: one column of the zoomed image out of `subpix`
from `ind` on, then one column of `no_data`. Simplification: the column coordinates `col[0] + ind / subpix …` are kept as `col0 …`. -/
def colZoom (img : Img K) (s ind : Nat) : Except Err (Img K) :=
  let cnt := zoomCount img.w s ind
  if cnt + 1 = img.w then
    .ok { img with
      im := fun r t => if t < cnt then zoomLinearCol img s r (ind + t * s) else img.noData
      msk := none }
  else .error .valueError

/-- `shift_subpix_img`, img_tools.py 480-524 (`row=False`). -/
def shiftSubpixCol (img : Img K) (s : Nat) : Except Err (List (Img K)) := do
  let l ← (List.range (s - 1)).mapM fun k => colZoom img s (k + 1)
  return img :: l

end

/-! ## Region of interest -/

/-- Margins `(left, up, right, down)` of a ROI. -/
structure RoiMargins where
  left : Int
  up : Int
  right : Int
  down : Int
deriving DecidableEq, Repr

/-- A ROI dictionary. -/
structure Roi where
  colFirst : Int
  colLast : Int
  rowFirst : Int
  rowLast : Int
  margins : RoiMargins
deriving DecidableEq, Repr

/-- Bounds used by `get_roi_processing` for one direction, img_tools.py 303-324: minimum of `init - range`, maximum of
`init + range` over the whole raster (grid), or the constants. -/
def dispBounds (d : Disp) : Int × Int :=
  match d.init with
  | .const i => (i - d.range, i + d.range)
  | .grid g => (minOf ((gridVals g).map (· - d.range)), maxOf ((gridVals g).map (· + d.range)))

/-- `get_roi_processing`, img_tools.py 284-328. The result is the pair (returned ROI, caller's ROI after the call): the
margins of the caller's ROI are updated in place. Mixing an integer and a grid raises `TypeError` (`str - int`). -/
def getRoiProcessing (roi : Roi) (col row : Disp) : Except Err (Roi × Roi) :=
  match col.init, row.init with
  | .const _, .grid _ => .error .typeError
  | .grid _, .const _ => .error .typeError
  | _, _ =>
    let bc := dispBounds col
    let br := dispBounds row
    let m : RoiMargins := ⟨max |bc.1| roi.margins.left, max |br.1| roi.margins.up,
      max |bc.2| roi.margins.right, max |br.2| roi.margins.down⟩
    .ok ({ roi with margins := m }, { roi with margins := m })

/-- Python bounds computed by `remove_roi_margins` for one direction, img_tools.py 346-371: `lo` and `hi` such that the
kept coordinates are `coords[lo:hi]`. -/
def roiBounds (coords : Arr1 Int) (first last : Int) (step : Nat) : Except Err (Int × Int) :=
  if coords.n = 0 then .error .indexError
  else
    let c0 := coords.get 0
    let c1 := coords.get (coords.n - 1)
    let lo : Int := if c0 < first then (first - c0) / step else 0
    let hi : Int := if c1 > last then (last - c1) / step else coords.n
    .ok (lo, hi)

/-- Disparity maps dataset (`row_map`, `col_map`, `correlation_score`) with coordinates and the attributes used when
saving. -/
structure MapsDs (β : Type) where
  row : Arr1 Int
  col : Arr1 Int
  rowMap : Nat → Nat → β
  colMap : Nat → Nat → β
  score : Nat → Nat → β

/-- `remove_roi_margins`, img_tools.py 331-388. -/
def removeRoiMargins {β : Type} (ds : MapsDs β) (roi : Roi) (stepRow stepCol : Nat) : Except Err (MapsDs β) := do
  let (left, right) ← roiBounds ds.col roi.colFirst roi.colLast stepCol
  let (up, down) ← roiBounds ds.row roi.rowFirst roi.rowLast stepRow
  let r0 := sliceStart ds.row.n up
  let c0 := sliceStart ds.col.n left
  return {
    row := ds.row.slice up down
    col := ds.col.slice left right
    rowMap := fun r c => ds.rowMap (r0 + r) (c0 + c)
    colMap := fun r c => ds.colMap (r0 + r) (c0 + c)
    score := fun r c => ds.score (r0 + r) (c0 + c) }

end Verif.ImgTools
