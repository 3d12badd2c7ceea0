import Verif.Py.Float

/-!
# The part of Python sequences and numpy arrays used by the code

Arrays are records of sizes with a total `get` function; only in-range indices are meaningful and all the property
theorems speak of in-range indices only.
-/

namespace Verif

/-- One-dimensional array. -/
structure Arr1 (α : Type) where
  n : Nat
  get : Nat → α

/-- Two-dimensional array (`h` rows, `w` columns). The cell type may itself be a function of further axes. -/
structure Arr2 (α : Type) where
  h : Nat
  w : Nat
  get : Nat → Nat → α

/-- Four-dimensional array, axes (row, col, disp_col, disp_row) in the code. -/
structure Arr4 (α : Type) where
  n0 : Nat
  n1 : Nat
  n2 : Nat
  n3 : Nat
  get : Nat → Nat → Nat → Nat → α

namespace Arr1
variable {α : Type}

/-- The list of the values of the array. -/
def toList (a : Arr1 α) : List α := (List.range a.n).map a.get

end Arr1

/-- CPython `slice.indices(n)` for a bound with step 1: negative bounds count from the end, then clamp to `[0, n]`. -/
def clampIdx (n : Nat) (i : Int) : Nat :=
  if i < 0 then (i + n).toNat else min i.toNat n

/-- Start of the Python slice `[lo:hi]` of a sequence of length `n`. -/
def sliceStart (n : Nat) (lo : Int) : Nat := clampIdx n lo

/-- Number of elements of the Python slice `[lo:hi]` of a sequence of length `n`. -/
def sliceLen (n : Nat) (lo hi : Int) : Nat := clampIdx n hi - clampIdx n lo

/-- The view `a[lo:hi]` (basic slicing: shares the storage, element `i` of the view is element `start + i`). -/
def Arr1.slice {α : Type} (a : Arr1 α) (lo hi : Int) : Arr1 α where
  n := sliceLen a.n lo hi
  get := fun i => a.get (sliceStart a.n lo + i)

/-- `np.arange(start, stop, step)` for integers and `step ≥ 1` (numpy: `ceil((stop - start) / step)` elements). -/
def arangeA (start stop : Int) (step : Nat) : Arr1 Int where
  n := ((stop - start + (step - 1 : Nat)) / (step : Int)).toNat
  get := fun k => start + (k : Int) * step

/-- `np.arange` as a list. -/
def arange (start stop : Int) (step : Nat) : List Int := (arangeA start stop step).toList

/-- Bounds `(start, length)` of the sub-arrays of `np.array_split(a, idx, axis)` for an axis of length `n`:
`div_points = [0] + idx + [n]` and sub-array `k` is `a[div_points[k] : div_points[k+1]]`. -/
def splitGo (n : Nat) (st : Nat) : List Nat → List (Nat × Nat)
  | [] => [(min st n, n - min st n)]
  | e :: es => (min st n, min e n - min st n) :: splitGo n e es

/-- Bounds of `np.array_split(a, idx, axis)`. -/
def splitBounds (n : Nat) (idx : List Nat) : List (Nat × Nat) := splitGo n 0 idx

namespace Arr2
variable {α β : Type}

/-- `a[r0 : r0 + h, c0 : c0 + w]` for in-range bounds. -/
def block (a : Arr2 α) (r0 h c0 w : Nat) : Arr2 α where
  h := h
  w := w
  get := fun i j => a.get (r0 + i) (c0 + j)

/-- `np.array_split(a, idx, axis=0)`. -/
def splitRows (a : Arr2 α) (idx : List Nat) : List (Arr2 α) :=
  (splitBounds a.h idx).map fun b => a.block b.1 b.2 0 a.w

/-- `np.array_split(a, idx, axis=1)`. -/
def splitCols (a : Arr2 α) (idx : List Nat) : List (Arr2 α) :=
  (splitBounds a.w idx).map fun b => a.block 0 a.h b.1 b.2

/-- Elementwise application. -/
def map (f : α → β) (a : Arr2 α) : Arr2 β where
  h := a.h
  w := a.w
  get := fun i j => f (a.get i j)

/-- `out[r0 : r0 + h, c0 : c0 + w] = b`: the target slice is clipped to the array, the assignment raises when its shape
is not the shape of `b` (numpy would also accept the broadcast of an axis of length one; not modelled). -/
def write (out : Arr2 α) (r0 h c0 w : Nat) (b : Arr2 α) : Except Err (Arr2 α) :=
  if sliceLen out.h r0 (r0 + h : Nat) = b.h ∧ sliceLen out.w c0 (c0 + w : Nat) = b.w then
    .ok { out with
      get := fun i j =>
        if r0 ≤ i ∧ i < r0 + b.h ∧ c0 ≤ j ∧ j < c0 + b.w then b.get (i - r0) (j - c0) else out.get i j }
  else .error .valueError

end Arr2

end Verif
