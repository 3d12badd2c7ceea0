import Verif.Py.Array

/-!
# Model of `pandora2d/common.py` (disparity range masking, georeferencing of the outputs)
-/

namespace Verif.Common

open Verif

variable {K : Type} [LinearOrder K] {α : Type}

/-- The boolean mask of one pixel for one disparity `d`, common.py 220-240 (rows) and 266-286 (columns): with a global
range, `(d < min & d >= g[0]) | (d > max & d <= g[1])`; without, `d < min | d > max`. -/
def outMask (d lo hi : K) : Option (K × K) → Bool
  | some (g0, g1) => (decide (d < lo) && decide (g0 ≤ d)) || (decide (hi < d) && decide (d ≤ g1))
  | none => decide (d < lo) || decide (hi < d)

/-- All the `(row, col)` cells of a grid, in the order of `np.nonzero`. -/
def cells (h w : Nat) : List (Nat × Nat) :=
  (List.range h).flatMap fun r => (List.range w).map fun c => (r, c)

/-- `np.nonzero(mask)` for one disparity. -/
def masking (d : K) (gmin gmax : Arr2 K) (g : Option (K × K)) : List (Nat × Nat) :=
  (cells gmin.h gmin.w).filter fun p => outMask d (gmin.get p.1 p.2) (gmax.get p.1 p.2) g

/-- One iteration of the loop of `set_out_of_row_disparity_range_to_other_value`, common.py 220-242:
`data.data[masking[0], masking[1], :, disp_row] = value`. Fancy indexing raises `IndexError` when a selected cell of the
grid does not exist in `data`. -/
def setRowStep (dispRow : Arr1 K) (gmin gmax : Arr2 K) (value : α) (g : Option (K × K)) (data : Arr4 α) (j : Nat) :
    Except Err (Arr4 α) :=
  let sel := masking (dispRow.get j) gmin gmax g
  if sel.all fun p => decide (p.1 < data.n0) && decide (p.2 < data.n1) then
    .ok { data with get := fun r c i j' => if j' = j ∧ (r, c) ∈ sel then value else data.get r c i j' }
  else .error .indexError

/-- `set_out_of_row_disparity_range_to_other_value`, common.py 198-242. -/
def setOutOfRow (data : Arr4 α) (dispRow : Arr1 K) (gmin gmax : Arr2 K) (value : α) (g : Option (K × K)) :
    Except Err (Arr4 α) :=
  (List.range data.n3).foldlM (setRowStep dispRow gmin gmax value g) data

/-- One iteration of the loop of `set_out_of_col_disparity_range_to_other_value`, common.py 266-290. -/
def setColStep (dispCol : Arr1 K) (gmin gmax : Arr2 K) (value : α) (g : Option (K × K)) (data : Arr4 α) (i : Nat) :
    Except Err (Arr4 α) :=
  let sel := masking (dispCol.get i) gmin gmax g
  if sel.all fun p => decide (p.1 < data.n0) && decide (p.2 < data.n1) then
    .ok { data with get := fun r c i' j => if i' = i ∧ (r, c) ∈ sel then value else data.get r c i' j }
  else .error .indexError

/-- `set_out_of_col_disparity_range_to_other_value`, common.py 245-290. -/
def setOutOfCol (data : Arr4 α) (dispCol : Arr1 K) (gmin gmax : Arr2 K) (value : α) (g : Option (K × K)) :
    Except Err (Arr4 α) :=
  (List.range data.n2).foldlM (setColStep dispCol gmin gmax value g) data

end Verif.Common
