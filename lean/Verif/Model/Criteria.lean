import Verif.Model.Common
import Verif.Model.MatchingCost

/-!
# Model of `pandora2d/constants.py` and `pandora2d/criteria.py`
-/

namespace Verif.Criteria

open Verif Verif.ImgTools Verif.MatchingCost Verif.Disparity

/-! ## constants.py -/

/-- The members of `class Criteria(Flag)` other than `VALID = 0`, constants.py 26-51, in order of declaration. -/
inductive Flag where
  | leftBorder
  | leftNodata
  | rightNodata
  | rightDisparityOutside
  | invalidityMaskLeft
  | invalidityMaskRight
  | peakOnEdge
  | disparityUnprocessed
deriving DecidableEq, Repr

/-- Rank of declaration. -/
def Flag.rank : Flag → Nat
  | .leftBorder => 0
  | .leftNodata => 1
  | .rightNodata => 2
  | .rightDisparityOutside => 3
  | .invalidityMaskLeft => 4
  | .invalidityMaskRight => 5
  | .peakOnEdge => 6
  | .disparityUnprocessed => 7

/-- Value given by `enum.auto()` in a `Flag` to the next member: the power of two after the highest bit of the previous
values (`VALID = 0` comes first). -/
def autoNext (maxPrev : Nat) : Nat := if maxPrev = 0 then 1 else 2 ^ (Nat.log2 maxPrev + 1)

/-- Values of `n` successive `auto()`, constants.py 33-51. -/
def autoValue : Nat → Nat
  | 0 => autoNext 0
  | n + 1 => autoNext (autoValue n)

/-- `Criteria.<member>.value`. -/
def Flag.value (f : Flag) : Nat := autoValue f.rank

/-- `Criteria.VALID`, constants.py 31. -/
def VALID : Nat := 0

/-! ## criteria.py -/

variable {K : Type} [Field K] [LinearOrder K] [IsStrictOrderedRing K] [FloorRing K]

/-- The criteria data array: coordinates and values (integer value of the flag combinations). `floatDisp` tells whether the
disparity coordinates have a float dtype (Pandora `get_disparity_range` returns integers only for `subpix = 1`). -/
structure Crit (K : Type) where
  row : Arr1 Int
  col : Arr1 Int
  dispCol : Arr1 K
  dispRow : Arr1 K
  floatDisp : Bool
  data : Nat → Nat → Nat → Nat → Nat

/-- `allocate_criteria_dataarray`, criteria.py 36-56. -/
def allocate (cv : CostVolumes K) : Crit K where
  row := cv.row
  col := cv.col
  dispCol := cv.dispCol
  dispRow := cv.dispRow
  floatDisp := decide (cv.subpixel ≠ 1)
  data := fun _ _ _ _ => VALID

/-- Pandora `binary_dilation_msk(img, window_size)` (contract): dilation of `msk == no_data_mask` by a square window (odd
size). -/
def dilated (img : Img K) (windowSize : Nat) (r c : Nat) : Bool :=
  (List.range windowSize).any fun a => (List.range windowSize).any fun b =>
    decide (windowSize / 2 ≤ r + a) && decide (r + a - windowSize / 2 < img.h) &&
    decide (windowSize / 2 ≤ c + b) && decide (c + b - windowSize / 2 < img.w) &&
    Pandora.noDataAt img (r + a - windowSize / 2) (c + b - windowSize / 2)

/-- `data[mask, ...] |= flag` with a 2-D boolean mask: `IndexError` when the shape of the mask is not the shape of the two
first axes. -/
def orMask (x : Crit K) (h w : Nat) (mask : Nat → Nat → Bool) (f : Flag) : Except Err (Crit K) :=
  if h = x.row.n ∧ w = x.col.n then
    .ok { x with data := fun r c i j => if mask r c then x.data r c i j ||| f.value else x.data r c i j }
  else .error .indexError

/-- `mask_left_no_data`, criteria.py 193-206. -/
def maskLeftNoData (left : Img K) (windowSize : Nat) (x : Crit K) : Except Err (Crit K) :=
  orMask x left.h left.w (dilated left windowSize) .leftNodata

/-- `mask_left_invalid`, criteria.py 228-242, with `get_invalid_mask` 266-278. -/
def maskLeftInvalid (left : Img K) (x : Crit K) : Except Err (Crit K) :=
  orMask x left.h left.w (Pandora.invalidAt left) .invalidityMaskLeft

/-- Slice of the right mask along one axis of length `n` for a disparity `d`: `[:d]` if `d < 0` else `[d:]`, criteria.py
297-298: (start, length). -/
def mskSlice (n : Nat) (d : Int) : Nat × Nat :=
  if d < 0 then (sliceStart n 0, sliceLen n 0 d) else (sliceStart n d, sliceLen n d n)

/-- Slice of the criteria along one axis of length `n`: `[-d:]` if `d <= 0` else `[:-d]`, criteria.py 300-301. -/
def critSlice (n : Nat) (d : Int) : Nat × Nat :=
  if d ≤ 0 then (sliceStart n (-d), sliceLen n (-d) n) else (sliceStart n 0, sliceLen n 0 (-d))

/-- One iteration of `apply_right_criteria_mask`, criteria.py 291-308. A slice bound of float type raises `TypeError`. The
in-place operation raises `ValueError` when the mask cannot be broadcast to the selected criteria. Labels are unique, so that
selecting by labels is selecting by index. -/
def rightStep (mask : Arr2 Nat) (x : Crit K) (ji : Nat × Nat) : Except Err (Crit K) :=
  if x.floatDisp then .error .typeError
  else
    let dr := ⌊x.dispRow.get ji.1⌋
    let dc := ⌊x.dispCol.get ji.2⌋
    let mr := mskSlice mask.h dr
    let mc := mskSlice mask.w dc
    let cr := critSlice x.row.n dr
    let cc := critSlice x.col.n dc
    if (mr.2 = cr.2 ∨ mr.2 = 1) ∧ (mc.2 = cc.2 ∨ mc.2 = 1) then
      .ok { x with
        data := fun r c i j =>
        if i = ji.2 ∧ j = ji.1 ∧ cr.1 ≤ r ∧ r < cr.1 + cr.2 ∧ cc.1 ≤ c ∧ c < cc.1 + cc.2 then
          x.data r c i j ||| mask.get (mr.1 + (if mr.2 = cr.2 then r - cr.1 else 0))
            (mc.1 + (if mc.2 = cc.2 then c - cc.1 else 0))
        else x.data r c i j }
    else .error .valueError

/-- `apply_right_criteria_mask`, criteria.py 281-308: `itertools.product(disp_row, disp_col)`. -/
def applyRight (x : Crit K) (mask : Arr2 Nat) : Except Err (Crit K) :=
  ((List.range x.dispRow.n).flatMap fun j => (List.range x.dispCol.n).map fun i => (j, i)).foldlM (rightStep mask) x

/-- `mask_right_no_data`, criteria.py 209-225. -/
def maskRightNoData (right : Img K) (windowSize : Nat) (x : Crit K) : Except Err (Crit K) :=
  applyRight x ⟨right.h, right.w, fun r c => if dilated right windowSize r c then VALID ||| Flag.rightNodata.value else VALID⟩

/-- `mask_right_invalid`, criteria.py 245-263. -/
def maskRightInvalid (right : Img K) (x : Crit K) : Except Err (Crit K) :=
  applyRight x ⟨right.h, right.w, fun r c =>
    if Pandora.invalidAt right r c then VALID ||| Flag.invalidityMaskRight.value else VALID⟩

/-- `ndarray.swapaxes(1, 3)` on a 4-D array. -/
def swap13 {α : Type} (f : Nat → Nat → Nat → Nat → α) : Nat → Nat → Nat → Nat → α := fun a b c d => f a d c b

/-- `ndarray.swapaxes(1, 2)` on a 4-D array. -/
def swap12 {α : Type} (f : Nat → Nat → Nat → Nat → α) : Nat → Nat → Nat → Nat → α := fun a b c d => f a c b d

/-- `mask_disparity_outside_right_image`, criteria.py 163-190. The condition has the dimensions (row, disp_row, col,
disp_col). An empty axis raises `IndexError` at `row_coords[0]`. -/
def maskOutside (offset : Nat) (x : Crit K) : Except Err (Crit K) :=
  if x.row.n = 0 ∨ x.col.n = 0 then .error .indexError
  else
    let cond : Nat → Nat → Nat → Nat → Bool := fun r j c i =>
      decide ((x.row.get r : K) + x.dispRow.get j < (x.row.get 0 : K) + (offset : K)) ||
      decide ((x.row.get r : K) + x.dispRow.get j > (x.row.get (x.row.n - 1) : K) - (offset : K)) ||
      decide ((x.col.get c : K) + x.dispCol.get i < (x.col.get 0 : K) + (offset : K)) ||
      decide ((x.col.get c : K) + x.dispCol.get i > (x.col.get (x.col.n - 1) : K) - (offset : K))
    let condSwap := swap12 (swap13 cond)
    .ok { x with
      data := fun r c i j =>
      if condSwap r c i j then x.data r c i j ||| Flag.rightDisparityOutside.value else x.data r c i j }

/-- Membership to the slice `[:offset]` or `[-offset:]` of an axis of length `n`. -/
def inBorder (n offset : Nat) (k : Nat) : Bool :=
  decide (k < sliceStart n 0 + sliceLen n 0 offset) || decide (sliceStart n (-(offset : Int)) ≤ k)

/-- `mask_border`, criteria.py 141-160: the border overwrites the other flags. -/
def maskBorder (offset : Nat) (x : Crit K) : Crit K :=
  if 0 < offset then
    { x with
      data := fun r c i j =>
      if inBorder x.row.n offset r || inBorder x.col.n offset c then Flag.leftBorder.value else x.data r c i j }
  else x

/-- The data as a 4-D array. -/
def Crit.arr (x : Crit K) : Arr4 Nat := ⟨x.row.n, x.col.n, x.dispCol.n, x.dispRow.n, x.data⟩

/-- `set_unprocessed_disp`, criteria.py 109-138: columns then rows, no global range. -/
def setUnprocessed (x : Crit K) (minCol maxCol minRow maxRow : Arr2 K) : Except Err (Crit K) := do
  let a ← Common.setOutOfCol x.arr x.dispCol minCol maxCol Flag.disparityUnprocessed.value none
  let b ← Common.setOutOfRow a x.dispRow minRow maxRow Flag.disparityUnprocessed.value none
  return { x with data := b.get }

/-- Conversion of a grid to the type of the disparities. -/
def castGrid (g : Arr2 Int) : Arr2 K := ⟨g.h, g.w, fun r c => (g.get r c : K)⟩

/-- The part of `get_criteria_dataarray` about the mask of the left image, criteria.py 79-83. -/
def leftMasks (left : Img K) (windowSize : Nat) (x : Crit K) : Except Err (Crit K) :=
  if left.msk.isSome then do
    let x ← maskLeftNoData left windowSize x
    maskLeftInvalid left x
  else pure x

/-- The part of `get_criteria_dataarray` about the mask of the right image, criteria.py 84-88. -/
def rightMasks (right : Img K) (windowSize : Nat) (x : Crit K) : Except Err (Crit K) :=
  if right.msk.isSome then do
    let x ← maskRightNoData right windowSize x
    maskRightInvalid right x
  else pure x

/-- `get_criteria_dataarray`, criteria.py 59-106. `windowSize` and `offset` are the attributes `window_size` and
`offset_row_col` of the cost volumes. -/
def getCriteria (left : Left K) (right : Img K) (windowSize offset : Nat) (cv : CostVolumes K) : Except Err (Crit K) := do
  let x ← leftMasks left.img windowSize (allocate cv)
  let x ← rightMasks right windowSize x
  let x ← maskOutside offset x
  setUnprocessed (maskBorder offset x) (castGrid left.colDisp.lo) (castGrid left.colDisp.hi) (castGrid left.rowDisp.lo)
    (castGrid left.rowDisp.hi)

end Verif.Criteria
