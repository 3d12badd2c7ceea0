import Verif.Model.OpticalFlow

/-!
# Model of `pandora2d/refinement/interpolation.py`

`scipy.interpolate.interp2d` (removed from SciPy 1.14) and `scipy.optimize.minimize` are parameters. `multiprocessing.Pool.map` gives
the results in the order of the arguments and works on copies of them.
-/

namespace Verif.Interpolation

open Verif Verif.Disparity Verif.OpticalFlow

variable {K : Type} [Field K] [LinearOrder K]

/-- The two external functions. `interp2d x y m "cubic"`: `m` has one row by element of `y`; `minimize f x0 bounds`. -/
structure IExt (K : Type) where
  interp2d : Arr1 K → Arr1 K → Arr2 (F K) → Except Err (K → K → F K)
  minimize : (K → K → F K) → F K × F K → (K × K) × (K × K) → K × K

/-- `np.rollaxis(a, 3, 0)`: the last axis becomes the first. -/
def rollToFirst (a : Arr4 (F K)) : Arr4 (F K) := ⟨a.n3, a.n0, a.n1, a.n2, fun i j k l => a.get j k l i⟩

/-- `np.rollaxis(a, 3, 1)`: the last axis becomes the second. -/
def rollToSecond (a : Arr4 (F K)) : Arr4 (F K) := ⟨a.n0, a.n3, a.n1, a.n2, fun i j k l => a.get i k l j⟩

/-- `cost_matrix[:, :, i]`, 148-149 and 156: `reshape` merges the two last axes, the last one varying first. -/
def costMatrix (data : Arr4 (F K)) (i : Nat) : Arr2 (F K) :=
  let a := rollToSecond (rollToFirst data)
  ⟨a.n0, a.n1, fun j k => a.get j k (i / a.n3) (i % a.n3)⟩

/-- Positions of a matrix in the order of `np.nonzero` (row by row). -/
def positions (m : Arr2 (F K)) : List (Nat × Nat) :=
  (List.range (m.h * m.w)).map fun k => (k / m.w, k % m.w)

/-- `np.interp(x, xp, fp)` for increasing integers `xp`, possibly repeated: the last point which is not after `x` is used. -/
def npInterp (x : Nat) : List (Nat × F K) → F K
  | [] => .nan
  | [(_, f)] => f
  | (a, f) :: (b, g) :: l =>
    if x < a then f
    else if b ≤ x then npInterp x ((b, g) :: l)
    else if a = x then f
    else F.add f (F.mul (fsub g f) (.fin (((x : K) - (a : K)) / ((b : K) - (a : K)))))

/-- `-args_matrix_cost` for a similarity, 92-95. -/
def signed (m : Measure) (x : Arr2 (F K)) : Arr2 (F K) :=
  match m with
  | .max => x.map F.neg
  | .min => x

/-- `matrix_cost[matrix_cost == np.inf] = np.nan`, 98. -/
def noInf (x : Arr2 (F K)) : Arr2 (F K) := x.map fun v => if F.eq v .pinf then .nan else v

/-- `matrix_cost[nans] = np.interp(np.nonzero(nans)[0], np.nonzero(~nans)[0], matrix_cost[~nans])`, 109-111: only the row of a
NaN is used. -/
def fillNan (x : Arr2 (F K)) : Arr2 (F K) :=
  let known := ((positions x).filter fun p => !(x.get p.1 p.2).isNaN).map fun p => (p.1, x.get p.1 p.2)
  ⟨x.h, x.w, fun j i => if (x.get j i).isNaN then npInterp j known else x.get j i⟩

/-- `compute_cost_matrix`, 69-124: (delta_col, delta_row, score). -/
def computeCostMatrix (e : IExt K) (cv : CostVolumes K) (col row : F K) (surface : Arr2 (F K)) :
    Except Err (F K × F K × F K) :=
  let m := noInf (signed cv.measure surface)
  if (positions m).all fun p => (m.get p.1 p.2).isNaN then .ok (.nan, .nan, .nan)
  else
    match e.interp2d cv.dispCol cv.dispRow (fillNan m) with
    | .error x => .error x
    | .ok f =>
      let bounds := ((cv.dispCol.get 0, cv.dispCol.get (cv.dispCol.n - 1)), (cv.dispRow.get 0, cv.dispRow.get (cv.dispRow.n - 1)))
      let p := e.minimize f (col, row) bounds
      .ok (.fin p.1, .fin p.2, fabs (f p.1 p.2))

/-- The cost volumes as a 4D array. -/
def dataOf (cv : CostVolumes K) : Arr4 (F K) := ⟨cv.row.n, cv.col.n, cv.dispCol.n, cv.dispRow.n, cv.data⟩

/-- Arguments of the pool, 151-156, and results in the same order. -/
def results (e : IExt K) (cv : CostVolumes K) (rowMap colMap : Arr2 (F K)) : Except Err (List (F K × F K × F K)) :=
  (List.range (cv.row.n * cv.col.n)).mapM fun i =>
    computeCostMatrix e cv (colMap.get (i / colMap.w) (i % colMap.w)) (rowMap.get (i / rowMap.w) (i % rowMap.w))
      (costMatrix (dataOf cv) i)

/-- `refinement_method`, 126-172: (col, row, score). `np.array(map_carte)[:, 0]` raises when there is no pixel, `np.reshape` when the
number of pixels is not the one of the map. -/
def refinementMethod (e : IExt K) (cv : CostVolumes K) (rowMap colMap : Arr2 (F K)) :
    Except Err (Arr2 (F K) × Arr2 (F K) × Arr2 (F K)) :=
  match results e cv rowMap colMap with
  | .error x => .error x
  | .ok l =>
    if l = [] then .error .indexError
    else if l.length ≠ colMap.h * colMap.w then .error .valueError
    else
      let get := fun r c => l.getD (r * colMap.w + c) (.nan, .nan, .nan)
      .ok (⟨colMap.h, colMap.w, fun r c => (get r c).1⟩, ⟨colMap.h, colMap.w, fun r c => (get r c).2.1⟩,
        ⟨colMap.h, colMap.w, fun r c => (get r c).2.2⟩)

end Verif.Interpolation
