import Verif.Model.Filters
import Verif.Model.Disparity
import Verif.Model.Common

/-!
# Model of `pandora2d/refinement/dichotomy.py`

The maps are float32 in the code; the disparities are multiples of 1/512 there, exact below 2^14 in float32.
-/

namespace Verif.Dichotomy

open Verif Verif.Filters Verif.Disparity

variable {K : Type} [Field K] [LinearOrder K]

/-- `Bicubic.margins`, bicubic.py 42-44; they are the margins of the dichotomy (dichotomy.py 83-91). -/
def bicubicMargins : Margins := ⟨1, 1, 2, 2⟩

/-- `CardinalSine.margins`, cardinal_sine.py 60-62. -/
def sincMargins (n : Nat) : Margins := ⟨n, n, n, n⟩

/-- `np.nanargmin` / `np.nanargmax`: NaN replaced by the worst infinity, ValueError when everything is NaN. -/
def nanArg (m : Measure) (l : List (F K)) : Except Err Nat :=
  if l.all F.isNaN then .error .valueError
  else .ok (m.arg (l.map fun x => if x.isNaN then m.worst else x))

/-- `all_same`, 293-295: `len(set(sequence)) == 1`. Two NaN are different objects, hence different elements of the set. -/
def allSame : List (F K) → Bool
  | [] => false
  | x :: xs => xs.all (F.eq x)

/-- Position in the cost surface (along the row disparities, along the column disparities), disparities and cost. -/
structure Point (K : Type) where
  posRow : K
  posCol : K
  dispRow : K
  dispCol : K
  cost : F K

/-- `disp_row_shifts` and `disp_col_shifts`, 334-335, before the multiplication by the precision. -/
def moves : List (Int × Int) :=
  [(-1, -1), (-1, 0), (-1, 1), (0, -1), (0, 0), (0, 1), (1, -1), (1, 0), (1, 1)]

/-- Positions `(new_cols, new_rows)` given to the filter, 352-355, 362. -/
def positions (subpix : Nat) (precision : K) (p : Point K) : List (K × K) :=
  moves.map fun s => ((s.1 : K) * precision * (subpix : K) + p.posRow, (s.2 : K) * precision * (subpix : K) + p.posCol)

section floor
variable [IsStrictOrderedRing K] [FloorRing K]

/-- `search_new_best_point`, 298-385. `surface` is the cost surface: column disparities along its rows, row disparities along its
columns. -/
def search (m : Measure) (f : IFilter K) (subpix : Nat) (surface : Arr2 (F K)) (p : Point K) (precision : K) :
    Except Err (Point K) :=
  match interpolate f surface (positions subpix precision p) with
  | .error e => .error e
  | .ok l =>
    let candidates := l.set 4 p.cost
    match (if allSame candidates then .ok 4 else nanArg m candidates) with
    | .error e => .error e
    | .ok i =>
      match moves[i]?, candidates[i]? with
      | some s, some v => .ok {
          posRow := (s.1 : K) * precision * (subpix : K) + p.posRow
          posCol := (s.2 : K) * precision * (subpix : K) + p.posCol
          dispRow := (s.1 : K) * precision + p.dispRow
          dispCol := (s.2 : K) * precision + p.dispCol
          cost := v }
      | _, _ => .error .indexError

/-- `precisions`, 152-153: from `subpixel.bit_length()` to the number of iterations. -/
def precisions (subpix iterations : Nat) : List K :=
  (List.range' (Nat.size subpix) (iterations + 1 - Nat.size subpix)).map fun it => 1 / 2 ^ it

/-- The loop over the precisions, 231-243. -/
def loop (m : Measure) (f : IFilter K) (subpix : Nat) (surface : Arr2 (F K)) : Point K → List K → Except Err (Point K)
  | p, [] => .ok p
  | p, x :: xs =>
    match search m f subpix surface p x with
    | .error e => .error e
    | .ok p' => loop m f subpix surface p' xs

/-- `searchsorted` (left) in an increasing axis: number of the elements which come before. -/
def searchAxis (a : Arr1 K) (x : K) : Nat := ((List.range a.n).filter fun i => decide (a.get i < x)).length

/-- The values of one pixel: row disparity, column disparity, cost. -/
structure Cell (K : Type) where
  row : F K
  col : F K
  cost : F K

/-- Equality of a disparity of the map with an end of the range (`in`, 193, 198). -/
def atEnd (d : F K) (lo hi : Int) : Bool := F.eq d (.fin (lo : K)) || F.eq d (.fin (hi : K))

/-- The body of the loop over the pixels, 175-243. The disparity of a pixel which has a cost is finite (it was selected in the axes). -/
def refinePixel (m : Measure) (f : IFilter K) (subpix iterations : Nat) (dispCol dispRow : Arr1 K) (surface : Arr2 (F K))
    (rowMin rowMax colMin colMax : Int) (c : Cell K) : Except Err (Cell K) :=
  if c.cost.isNaN then .ok c
  else if atEnd c.row rowMin rowMax then .ok c
  else if atEnd c.col colMin colMax then .ok c
  else
    match c.row, c.col with
    | .fin dr, .fin dc =>
      match loop m f subpix surface ⟨(searchAxis dispRow dr : K), (searchAxis dispCol dc : K), dr, dc, c.cost⟩
          (precisions subpix iterations) with
      | .error e => .error e
      | .ok p => .ok ⟨.fin p.dispRow, .fin p.dispCol, p.cost⟩
    | _, _ => .error .valueError

end floor

/-- `row_map.isnull()` or `row_map.isin(invalid_disparity)`, 121-127. -/
def isInvalid (invalid : F K) (v : F K) : Bool := if invalid.isNaN then v.isNaN else F.eq v invalid

/-- Index of a label in an axis (`.sel`), KeyError when absent. -/
def selIndex (a : Arr1 K) (v : F K) : Except Err Nat :=
  match (List.range a.n).find? fun i => F.eq v (.fin (a.get i)) with
  | some i => .ok i
  | none => .error .keyError

/-- The cost of one pixel at its disparities, 128-139: invalid disparities are replaced by the first of the axis for the selection,
then the cost of pixels with an invalid disparity is NaN. -/
def costValue (cv : CostVolumes K) (invalid : F K) (row col : F K) (r c : Nat) : Except Err (F K) :=
  let invR := isInvalid invalid row
  let invC := isInvalid invalid col
  if cv.dispRow.n = 0 ∨ cv.dispCol.n = 0 then .error .indexError
  else
    match selIndex cv.dispRow (if invR then .fin (cv.dispRow.get 0) else row),
        selIndex cv.dispCol (if invC then .fin (cv.dispCol.get 0) else col) with
    | .ok j, .ok i => .ok (if invR || invC then .nan else cv.data r c i j)
    | _, _ => .error .keyError

/-- Disparity grids of the left image, 143-147. -/
structure Grids where
  rowMin : Arr2 Int
  rowMax : Arr2 Int
  colMin : Arr2 Int
  colMax : Arr2 Int

/-- The three maps. -/
structure Maps (K : Type) where
  row : Arr2 (F K)
  col : Arr2 (F K)
  cost : Arr2 (F K)

/-- A function of the pixels which may raise, over all the pixels, row first: the first exception stops. -/
def mapCells {α : Type} (h w : Nat) (g : Nat → Nat → Except Err α) (default : α) : Except Err (Arr2 α) :=
  (Common.cells h w).foldlM (fun (out : Arr2 α) p => do
    let v ← g p.1 p.2
    return { out with get := fun r c => if r = p.1 ∧ c = p.2 then v else out.get r c }) ⟨h, w, fun _ _ => default⟩

/-- All the arrays given to `np.nditer` have the shape of the costs. (numpy would also accept grids with axes of length one.) -/
def sameShape (h w : Nat) (a : Arr2 Int) : Bool := decide (a.h = h ∧ a.w = w)

/-- `Dichotomy.refinement_method`, 93-249. `np.nditer` gives the pixels row first, as `CostSurfaces.__iter__` (279-283) does; it raises
ValueError when the shapes differ. The maps have the shape of the cost volumes (they are built from its coordinates). -/
def refinementMethod [IsStrictOrderedRing K] [FloorRing K] (f : IFilter K) (iterations : Nat) (cv : CostVolumes K) (invalid : F K)
    (rowMap colMap : Arr2 (F K)) (g : Grids) : Except Err (Maps K) := do
  let h := cv.row.n
  let w := cv.col.n
  let costs ← mapCells h w (fun r c => costValue cv invalid (rowMap.get r c) (colMap.get r c) r c) .nan
  if sameShape h w g.rowMin && sameShape h w g.rowMax && sameShape h w g.colMin && sameShape h w g.colMax then
    let out ← mapCells h w (fun r c => refinePixel cv.measure f cv.subpixel iterations cv.dispCol cv.dispRow
      ⟨cv.dispCol.n, cv.dispRow.n, fun i j => cv.data r c i j⟩ (g.rowMin.get r c) (g.rowMax.get r c) (g.colMin.get r c)
      (g.colMax.get r c) ⟨rowMap.get r c, colMap.get r c, costs.get r c⟩) ⟨.nan, .nan, .nan⟩
    return ⟨out.map Cell.row, out.map Cell.col, out.map Cell.cost⟩
  else .error .valueError

end Verif.Dichotomy
