import Verif.Py.Array
import Mathlib.Algebra.Order.Floor.Ring
import Mathlib.Analysis.SpecialFunctions.Trigonometric.Basic

/-!
# Model of `pandora2d/interpolation_filter`

Finite arithmetic is exact (see `Verif.Py.Float`): the filters are over a linearly ordered field, the cardinal sine over the
real numbers.
-/

namespace Verif.Filters

open Verif

variable {K : Type} [Field K] [LinearOrder K]

/-- Dot product of coefficients with `n` values, `np.dot`. -/
def dot (n : Nat) (a : Nat → K) (b : Nat → F K) : F K :=
  (List.range n).foldl (fun s i => F.add s (F.mul (.fin (a i)) (b i))) (.fin 0)

/-- `AbstractFilter.apply`, interpolation_filter.py 131-145: `row_coeff.dot(area).dot(col_coeff)`. numpy raises ValueError when the
sizes differ. -/
def apply (area : Arr2 (F K)) (rowCoeff colCoeff : Arr1 K) : Except Err (F K) :=
  if rowCoeff.n ≠ area.h then .error .valueError
  else if colCoeff.n ≠ area.w then .error .valueError
  else .ok (dot area.w colCoeff.get fun j => dot area.h rowCoeff.get fun i => area.get i j)

/-- An interpolation filter: `_SIZE`, `margins.left`, `margins.up` and `get_coeffs`. -/
structure IFilter (K : Type) where
  size : Nat
  left : Nat
  up : Nat
  coeffs : K → Except Err (Arr1 K)

/-- `image[a:b, c:d]`. -/
def slice2 {α : Type} (im : Arr2 α) (a b c d : Int) : Arr2 α where
  h := sliceLen im.h a b
  w := sliceLen im.w c d
  get := fun i j => im.get (sliceStart im.h a + i) (sliceStart im.w c + j)

section floor
variable [IsStrictOrderedRing K] [FloorRing K]

/-- `abs(math.modf(x)[0])`, interpolation_filter.py 172-173. -/
def fracAbs (x : K) : K := if 0 ≤ x then Int.fract x else Int.fract (-x)

/-- `np.finfo(np.float32).eps`. -/
def eps : K := 1 / 2 ^ 23

/-- `max_fractional_value`, 0.998046875. -/
def maxFrac : K := 511 / 512

/-- The fractional part given to `get_coeffs`, interpolation_filter.py 172-179. -/
def fracPart (x : K) : K := if 1 - fracAbs x < eps then maxFrac else fracAbs x

/-- The resampling area of a position, interpolation_filter.py 185-195. -/
def area (f : IFilter K) (im : Arr2 (F K)) (posCol posRow : K) : Arr2 (F K) :=
  let r : Int := ⌊posRow⌋ - f.left
  let c : Int := ⌊posCol⌋ - f.up
  slice2 im r (r + f.size) c (c + f.size)

/-- One position of `AbstractFilter.interpolate`, interpolation_filter.py 170-200. -/
def interpolate1 (f : IFilter K) (im : Arr2 (F K)) (p : K × K) : Except Err (F K) :=
  match f.coeffs (fracPart p.2) with
  | .error e => .error e
  | .ok cr =>
    match f.coeffs (fracPart p.1) with
    | .error e => .error e
    | .ok cc => apply (area f im p.1 p.2) cr cc

/-- `AbstractFilter.interpolate`, interpolation_filter.py 147-202: positions are pairs (column, row). -/
def interpolate (f : IFilter K) (im : Arr2 (F K)) : List (K × K) → Except Err (List (F K))
  | [] => .ok []
  | p :: ps =>
    match interpolate1 f im p with
    | .error e => .error e
    | .ok v =>
      match interpolate f im ps with
      | .error e => .error e
      | .ok vs => .ok (v :: vs)

end floor

/-! ## Bicubic -/

/-- One coefficient, bicubic.py 50-57, with alpha = -1/2. -/
def bicubicCoeff (t : K) (i : Nat) : K :=
  let alpha : K := -1 / 2
  let dist := |(-1 : K) + (i : K) - t|
  if dist ≤ 1 then (((alpha + 2) * dist - (alpha + 3)) * dist * dist) + 1
  else (((alpha * dist - 5 * alpha) * dist) + 8 * alpha) * dist - 4 * alpha

/-- `Bicubic`, bicubic.py 30-59. -/
def bicubic : IFilter K where
  size := 4
  left := 1
  up := 1
  coeffs t := .ok ⟨4, bicubicCoeff t⟩

/-! ## Cardinal sine -/

/-- `np.sinc` (numpy replaces 0 by 1e-20 before dividing, which gives 1). -/
noncomputable def sinc (x : ℝ) : ℝ := if x = 0 then 1 else Real.sin (Real.pi * x) / (Real.pi * x)

/-- `tab_coeffs`, cardinal_sine.py 85-106: `sinc(yv - xv) * exp(aux1 * (yv - xv)²)`, `n` the half size, `x = k - n` the position of
coefficient `k`. -/
noncomputable def rawCoeff (n : Nat) (t : ℝ) (k : Nat) : ℝ :=
  let sigma : ℝ := n
  let aux1 := (-2 * Real.pi) / (sigma * sigma)
  let aux := t - ((k : ℝ) - (n : ℝ))
  sinc aux * Real.exp (aux1 * aux * aux)

/-- `np.nansum` of one row. -/
noncomputable def rawSum (n : Nat) (t : ℝ) : ℝ := (List.range (2 * n + 1)).foldl (fun s k => s + rawCoeff n t k) 0

/-- `compute_coefficient_table`, cardinal_sine.py 68-107, one row. -/
noncomputable def sincCoeff (n : Nat) (t : ℝ) (k : Nat) : ℝ := rawCoeff n t k / rawSum n t

/-- `np.arange(0, 1, 1 / m)`, for a fractional shift `1 / m`. -/
noncomputable def shifts (m : Nat) : Arr1 ℝ := ⟨m, fun k => (k : ℝ) / m⟩

open Classical in
/-- `searchsorted` (left): number of the elements which come before. -/
noncomputable def searchsorted (a : Arr1 ℝ) (x : ℝ) : Nat := ((List.range a.n).filter fun i => a.get i < x).length

/-- `CardinalSine`, cardinal_sine.py 33-65, for half size `n` and fractional shift `1 / m`. -/
noncomputable def cardinalSine (n m : Nat) : IFilter ℝ where
  size := 1 + n * 2
  left := n
  up := n
  coeffs t :=
    let index := searchsorted (shifts m) t
    if index < m then .ok ⟨2 * n + 1, sincCoeff n ((shifts m).get index)⟩ else .error .indexError

end Verif.Filters
