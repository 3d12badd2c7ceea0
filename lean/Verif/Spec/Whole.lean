import Verif.Spec.Usable
import Verif.Spec.Values
import Mathlib.Data.List.Perm.Basic

/-!
# Specification of executions with disparities of whole pixels on other images: rows and columns exchanged, left and right exchanged
-/

namespace Verif.Spec

open Verif Verif.Config Verif.MatchingCost Verif.ImgTools Verif.Disparity Verif.Main

variable {K : Type} [Field K] [LinearOrder K]

/-- A configuration on full images of `H` rows and `W` columns, whose pipeline stops at the disparity maps without estimation, with
disparities of `1 / n` pixel and a window cost. -/
structure OnFullImages [IsStrictOrderedRing K] [FloorRing K] (w : World K) (user p mc inp l r : Fields) (H W : Nat) (dRow dCol : Disp)
    (sr sc : Nat) (invalid : F K) (n hw : Nat) (me : Measure) (ker : List (F K × F K) → F K) : Prop where
  input : user.get "input" = some (.obj inp)
  left : inp.get "left" = some (.obj l)
  right : inp.get "right" = some (.obj r)
  full : user.get "ROI" = none
  pipeline : user.get "pipeline" = some (.obj p)
  noEstimation : p.get "estimation" = none
  noRefinement : p.get "refinement" = none
  cost : p.get "matching_cost" = some (.obj mc)
  matcher : MatcherIs w mc n me (Pandora.windowCost hw ker)
  asks : Asks w user H W dRow dCol 0 ((H : Int) - 1) 0 ((W : Int) - 1) sr sc invalid

/-- With disparities of whole pixels. -/
abbrev WholePixels [IsStrictOrderedRing K] [FloorRing K] (w : World K) (user p mc inp l r : Fields) (H W : Nat) (dRow dCol : Disp)
    (sr sc : Nat) (invalid : F K) (hw : Nat) (me : Measure) (ker : List (F K × F K) → F K) : Prop :=
  OnFullImages w user p mc inp l r H W dRow dCol sr sc invalid 1 hw me ker

/-- The values of the two windows, pixel by pixel. -/
def wholePairs (hw : Nat) (left right : Img K) (a b : Nat) (dr dc : Int) : List (F K × F K) :=
  (List.range (2 * hw + 1)).flatMap fun x => (List.range (2 * hw + 1)).map fun y =>
    (left.im (a + x - hw) (b + y - hw), right.im ((a : Int) + dr + x - hw).toNat ((b : Int) + dc + y - hw).toNat)

open Classical in
/-- The cost of two windows which can be compared, NaN otherwise. -/
noncomputable def wholeCost (hw : Nat) (ker : List (F K × F K) → F K) (left right : Img K) (a b : Nat) (dr dc : Int) : F K :=
  if Comparable hw left right a b dr dc then ker (wholePairs hw left right a b dr dc) else .nan

/-- The measure does not depend on the order of the pixels of the window. -/
def OrderFree (ker : List (F K × F K) → F K) : Prop := ∀ l l', l.Perm l' → ker l = ker l'

/-- The measure does not distinguish the two windows. -/
def Symmetric (ker : List (F K × F K) → F K) : Prop := ∀ l, ker (l.map Prod.swap) = ker l

/-- The rows of `img'` are the columns of `img`, with its masks. -/
structure Transposed (img img' : Img K) : Prop where
  noData : img'.noData = img.noData
  values : ∀ x < img.h, ∀ y < img.w, img'.im y x = img.im x y
  flags : ∀ x < img.h, ∀ y < img.w, Pandora.noDataAt img' y x = Pandora.noDataAt img x y
  valid : ∀ x < img.h, ∀ y < img.w, Pandora.invalidAt img' y x = Pandora.invalidAt img x y

/-- The interval of `d` at each pixel of an image of `H` rows and `W` columns is the one of `d'` at the transposed pixel. -/
def TransposedIntervals (d d' : Disp) (H W : Nat) : Prop :=
  ∀ x < H, ∀ y < W, initAt d x y - d.range = initAt d' y x - d'.range ∧ initAt d x y + d.range = initAt d' y x + d'.range

/-- The image `img'` holds the same values as `img`. -/
def SameValues (img img' : Img K) : Prop := img'.noData = img.noData ∧ ∀ x < img.h, ∀ y < img.w, img'.im x y = img.im x y

/-- The pixel `(a + x, b + y)` of the `h'` rows and `w'` columns of scores `score'`, if it exists and may go back by `(-x, -y)`, has a score
at least as good as `s`. -/
def Answered (me : Measure) (dRow' dCol' : Disp) (sr' sc' h' w' : Nat) (score' : Nat → Nat → F K) (s : F K) (a b : Nat) (x y : Int) : Prop :=
  ∀ i' j' : Nat, i' < h' → j' < w' → ((i' * sr' : Nat) : Int) = a + x → ((j' * sc' : Nat) : Int) = b + y →
    InIntervals dRow' dCol' (a + x) (b + y) (-x) (-y) → AtLeastAsGood me (score' i' j') s

/-- The disparities `(x, y)` are in the intervals of the pixel, their windows can be compared and their measure is `s`. -/
def Reaches (hw : Nat) (ker : List (F K × F K) → F K) (left right : Img K) (dRow dCol : Disp) (a b : Nat) (s : F K) (x y : Int) : Prop :=
  InIntervals dRow dCol a b x y ∧ Comparable hw left right a b x y ∧ ker (wholePairs hw left right a b x y) = s

/-- The row disparity and the column disparity of a pixel each reach its score, and whatever reaches its score is answered. -/
def GoesBack (reaches answered : Int → Int → Prop) (row col : F K) : Prop :=
  (∃ x y, reaches x y ∧ row = .fin ((x : Int) : K)) ∧ (∃ x y, reaches x y ∧ col = .fin ((y : Int) : K)) ∧
    ∀ x y, reaches x y → answered x y

end Verif.Spec
