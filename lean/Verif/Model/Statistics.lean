import Verif.Model.OpticalFlow

/-!
# Model of `pandora2d/statistics.py` and `pandora2d/reporting.py`

A map is the list of its cells. Simplifications: exact arithmetic (the levels 0.1, ..., 0.9 are exactly 2/20, ..., 18/20), the square root is
a parameter, warnings are not modelled.
-/

namespace Verif.Statistics

open Verif Verif.OpticalFlow

variable {K : Type} [Field K] [LinearOrder K]

/-- `Statistics`, statistics.py 38-53, with `Quantiles`, 27-35, as a list. -/
structure Stats (K : Type) where
  mean : F K
  std : F K
  quantiles : List (F K)
  ratio : F K

/-- The values that the `nan...` functions of numpy look at. -/
def known (l : List (F K)) : List (F K) := l.filter fun v => !v.isNaN

/-- `np.nansum`. -/
def fsum (l : List (F K)) : F K := (known l).foldr F.add (.fin 0)

/-- Division of a float by a number of elements; numpy gives NaN for `0 / 0`. -/
def over (x : F K) (n : Nat) : F K := if n = 0 then .nan else F.mul x (.fin (1 / (n : K)))

/-- `np.nanmean`: NaN when there is nothing. -/
def nanMean (l : List (F K)) : F K := over (fsum l) (known l).length

/-- `np.nanstd`: square root of the mean of the squared differences to the mean. -/
def nanStd (sqrt : F K → F K) (l : List (F K)) : F K :=
  if (known l).length = 0 then .nan
  else
    let m := nanMean l
    let d := (known l).map fun v => F.mul (fsub v m) (fsub v m)
    sqrt (over (d.foldr F.add (.fin 0)) (known l).length)

/-- numpy `_lerp(a, b, t)`. -/
def lerp (a b : F K) (t : K) : F K :=
  if t < 1 / 2 then F.add a (F.mul (fsub b a) (.fin t)) else fsub b (F.mul (fsub b a) (.fin (1 - t)))

/-- One level (in twentieths) of `np.nanquantile` with the default method "linear": position `level * (n - 1)` in the sorted values. -/
def nanQuantile (l : List (F K)) (p : Nat) : F K :=
  let s := (known l).mergeSort F.le
  if s.length = 0 then .nan
  else
    let k := p * (s.length - 1) / 20
    let t : K := ((p * (s.length - 1) % 20 : Nat) : K) / 20
    lerp (s.getD k .nan) (s.getD (min (k + 1) (s.length - 1)) .nan) t

/-- `np.isin(data, invalid, invert=True)`. -/
def isNotIn (l : List (F K)) (v : F K) : List (F K) := l.filter fun x => !F.eq x v

/-- `compute_statistics`, statistics.py 56-84. `invalid = none` is the default `None`. -/
def computeStatistics (sqrt : F K → F K) (l : List (F K)) (invalid : Option (F K)) : Stats K :=
  let (data, ratio) :=
    match invalid with
    | none => (l, over (.fin ((known l).length : K)) l.length)
    | some v =>
      if v.isNaN then (l, over (.fin ((known l).length : K)) l.length)
      else (isNotIn l v, over (.fin ((isNotIn l v).length : K)) l.length)
  let q := if data.length ≠ 0 then [2, 5, 10, 15, 18].map (nanQuantile data) else [.nan, .nan, .nan, .nan, .nan]
  ⟨nanMean data, nanStd sqrt data, q, ratio⟩

/-- The cells of a map, row by row. -/
def cells {α : Type} (a : Arr2 α) : List α := (List.range (a.h * a.w)).map fun k => a.get (k / a.w) (k % a.w)

/-- `report_disparities`, reporting.py 41-51: statistics of the row map and of the column map. -/
def reportDisparities (sqrt : F K → F K) (rowMap colMap : Arr2 (F K)) (invalidDisp : F K) : Stats K × Stats K :=
  (computeStatistics sqrt (cells rowMap) (some invalidDisp), computeStatistics sqrt (cells colMap) (some invalidDisp))

end Verif.Statistics
