import Verif.Model.Criteria

/-!
# Specifications for the criteria
-/

namespace Verif.Spec

open Verif Verif.ImgTools Verif.Criteria

/-- A combination contains a flag: `combination & flag` is not zero. -/
def Has (v : Nat) (f : Flag) : Prop := v &&& f.value ≠ 0

/-- The combination `f1 | f2 | …` of a list of flags (`VALID` when the list is empty). -/
def combine : List Flag → Nat
  | [] => VALID
  | f :: fs => f.value ||| combine fs

variable {K : Type}

/-- The square window of half-size `o` centred on `(y, x)` is inside an image of `h` rows and `w` columns. -/
def WindowInside [Field K] [LinearOrder K] (h w o : Nat) (y x : K) : Prop :=
  ((o : K) ≤ y ∧ y ≤ (h : K) - 1 - (o : K)) ∧ ((o : K) ≤ x ∧ x ≤ (w : K) - 1 - (o : K))

/-- The window of half-size `o` centred on pixel `(y, x)` contains a no-data pixel of the image. -/
def NoDataInWindow (img : Img K) (o : Nat) (y x : Int) : Prop :=
  ∃ r < img.h, ∃ c < img.w, |(r : Int) - y| ≤ o ∧ |(c : Int) - x| ≤ o ∧ Pandora.noDataAt img r c = true

/-- Pixel `(y, x)` exists and is neither valid nor no-data according to the mask. -/
def InvalidPixel (img : Img K) (y x : Int) : Prop :=
  (0 ≤ y ∧ y < img.h ∧ 0 ≤ x ∧ x < img.w) ∧ Pandora.invalidAt img y.toNat x.toNat = true

/-- Pixel `(y, x)` exists and its window contains no-data. -/
def NoDataPixel (img : Img K) (o : Nat) (y x : Int) : Prop :=
  (0 ≤ y ∧ y < img.h ∧ 0 ≤ x ∧ x < img.w) ∧ NoDataInWindow img o y x

/-- The disparity is in the range stored at pixel `(r, c)`. -/
def InRange [Field K] [LinearOrder K] (M : MinMax) (r c : Nat) (d : K) : Prop :=
  (M.lo.get r c : K) ≤ d ∧ d ≤ (M.hi.get r c : K)

/-- The coordinates of the criteria are those of all the pixels of an image of `h` rows, `w` columns. -/
def FullCoords (row col : Arr1 Int) (row0 col0 : Int) (h w : Nat) : Prop :=
  (row.n = h ∧ ∀ k < h, row.get k = row0 + k) ∧ (col.n = w ∧ ∀ k < w, col.get k = col0 + k)

/-- The condition announced by each flag (constants.py) for the left pixel `(r, c)` and the disparities `dr`, `dc`, with
windows of half-size `o`. Flags that are not cumulative (border, unprocessed disparity) or not raised by the function have
no condition here. -/
def Announced [Field K] [LinearOrder K] (left right : Img K) (o r c : Nat) (dr dc : K) : Flag → Prop
  | .leftNodata => NoDataInWindow left o r c
  | .invalidityMaskLeft => InvalidPixel left r c
  | .rightNodata => ∃ y x : Int, (y : K) = (r : K) + dr ∧ (x : K) = (c : K) + dc ∧ NoDataPixel right o y x
  | .invalidityMaskRight => ∃ y x : Int, (y : K) = (r : K) + dr ∧ (x : K) = (c : K) + dc ∧ InvalidPixel right y x
  | .rightDisparityOutside => ¬ WindowInside right.h right.w o ((r : K) + dr) ((c : K) + dc)
  | _ => False

end Verif.Spec
