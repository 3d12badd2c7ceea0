import Verif.Model.OpticalFlow

/-!
# Specification of the optical flow refinement, one pixel at a time

Only data types and float operations of the model are used: no list of indices, no flattened axis, no padding.
-/

namespace Verif.Spec

open Verif Verif.ImgTools Verif.OpticalFlow

variable {K : Type}

/-- The window of half size `half` centred at label `(r, c)` lies in the image. -/
def WindowFits (img : Img K) (half : Nat) (r c : Int) : Prop :=
  img.row0 + half ≤ r ∧ r + half < img.row0 + img.h ∧ img.col0 + half ≤ c ∧ c + half < img.col0 + img.w

instance (img : Img K) (half : Nat) (r c : Int) : Decidable (WindowFits img half r c) := by
  unfold WindowFits; infer_instance

/-- The window of half size `half` centred at label `(r, c)`: its cell `(half + a, half + b)` is the pixel of label
`(r + a, c + b)`. -/
def windowOf (img : Img K) (half : Nat) (r c : Int) : Win K :=
  ⟨2 * half + 1, 2 * half + 1, fun i j => img.im (r - half - img.row0 + i).toNat (c - half - img.col0 + j).toNat⟩

/-- The window in the right image: NaN when it leaves the image. -/
def rightWindow (img : Img K) (half : Nat) (r c : Int) : Win K :=
  if WindowFits img half r c then windowOf img half r c else ⟨2 * half + 1, 2 * half + 1, fun _ _ => .nan⟩

/-- Coordinates in arithmetic progression. -/
structure RegularAxis (a : Arr1 Int) (start : Int) (step : Nat) : Prop where
  pos : 1 ≤ step
  get : ∀ k < a.n, a.get k = start + (k : Int) * step

/-- Index `k` is at least `offset` away, in coordinates, from the first and from the last coordinate. -/
def InnerIdx (a : Arr1 Int) (offset : Nat) (k : Nat) : Prop :=
  k < a.n ∧ a.get 0 + offset ≤ a.get k ∧ a.get k + offset ≤ a.get (a.n - 1)

section
variable [Field K] [LinearOrder K]

/-- `s` is the integer part of `x`, toward zero. -/
def IntPart (x : K) (s : Int) : Prop := |(s : K)| ≤ |x| ∧ |x| < |(s : K)| + 1 ∧ 0 ≤ (s : K) * x

/-- The shift of the window of the right image for an initial disparity `d`. -/
def StartShift (invalid d : F K) (s : Int) : Prop :=
  (s = 0 ∧ (d = .nan ∨ d = invalid)) ∨ ∃ x, d = .fin x ∧ d ≠ invalid ∧ IntPart x s

/-- A motion of more than one pixel is replaced by zero. -/
def clip (m : F K) : F K := if F.lt (.fin 1) (fabs m) then .fin 0 else m

/-- Disparity `(row, column)` of one pixel after at most `n` iterations: while both motions are smaller than one pixel they are
subtracted and the right window is resampled; the first iteration where one of them is not is the last one, with the motions
larger than one pixel ignored. `flow` gives the motion between two windows and `warp` resamples a window. -/
def trajectory (flow : Win K → Win K → F K × F K) (warp : Win K → F K → F K → Win K) (left : Win K) :
    Nat → Win K → F K × F K → F K × F K
  | 0, _, d => d
  | n + 1, right, d =>
    let m := flow left right
    if F.lt (fabs m.1) (.fin 1) ∧ F.lt (fabs m.2) (.fin 1) then
      trajectory flow warp left n (warp right m.1 m.2) (fsub d.1 m.1, fsub d.2 m.2)
    else (fsub d.1 (clip m.1), fsub d.2 (clip m.2))

/-- A disparity which is not strictly between the two bounds is replaced by the invalid value; NaN is left as it is. -/
def insideOr (invalid : F K) (lo hi : Int) (x : F K) : F K :=
  if F.le x (.fin (lo : K)) ∨ F.le (.fin (hi : K)) x then invalid else x

/-- Strictly inside the disparity range. -/
def StrictlyInside (lo hi : Int) (x : F K) : Prop := ∃ k, x = .fin k ∧ (lo : K) < k ∧ k < (hi : K)

/-- What the pipeline gives to the refinement: regular coordinates taken in the left image, the window of the matching cost
(odd, at least three), maps on the coordinates of the cost volumes. -/
structure FlowSetting (cfg : Cfg) (cv : CostCoords) (rowMap colMap : Arr2 (F K)) (left : Img K) (r0 c0 : Int) : Prop where
  rowReg : RegularAxis cv.row r0 cv.stepRow
  colReg : RegularAxis cv.col c0 cv.stepCol
  window : cfg.windowSize = 2 * cv.offset + 1
  offset : 1 ≤ cv.offset
  rowIn : ∀ k < cv.row.n, left.row0 ≤ cv.row.get k ∧ cv.row.get k < left.row0 + left.h
  colIn : ∀ k < cv.col.n, left.col0 ≤ cv.col.get k ∧ cv.col.get k < left.col0 + left.w
  rowMap : rowMap.h = cv.row.n ∧ rowMap.w = cv.col.n
  colMap : colMap.h = cv.row.n ∧ colMap.w = cv.col.n

end
end Verif.Spec
