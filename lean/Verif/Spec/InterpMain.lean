import Verif.Spec.Refined
import Verif.Spec.Interpolation

/-!
# Specification of an execution with an interpolation
-/

namespace Verif.Spec

open Verif Verif.Config Verif.MatchingCost Verif.ImgTools Verif.Disparity Verif.Main

variable {K : Type} [Field K] [LinearOrder K]

/-- The intervals of the pixels of an image: the smallest disparity is `first`, the greatest one is `last`. -/
structure Extent (d : Disp) (img : Img K) (first last : Int) : Prop where
  inside : ∀ a < img.h, ∀ b < img.w, first ≤ initAt d (img.row0 + a) (img.col0 + b) - d.range ∧
    initAt d (img.row0 + a) (img.col0 + b) + d.range ≤ last
  reached : ∃ a < img.h, ∃ b < img.w, initAt d (img.row0 + a) (img.col0 + b) - d.range = first
  reached' : ∃ a < img.h, ∃ b < img.w, initAt d (img.row0 + a) (img.col0 + b) + d.range = last

/-- A disparity whose cost is read for the pixel at row `r` and column `c`: in its own interval, or before the first and after the last of
the disparities of all the pixels. -/
def ReadDisp (d : Disp) (first last r c : Int) (x : K) : Prop :=
  (((initAt d r c - d.range : Int) : K) ≤ x ∧ x ≤ ((initAt d r c + d.range : Int) : K)) ∨ x < (first : K) ∨ (last : K) < x

/-- The two disparities and the score of a pixel after an interpolation on the axes `ax` and `ay`, from `row0` and `col0`: NaN three times when
no cost is read for this pixel. Otherwise the two disparities end the minimisation, from these ones, of a surface interpolated from values which
are the costs read (their opposites for a similarity); a missing cost is replaced according to the known costs of the rows around. The score is the absolute value of this surface. -/
structure InterpPixel (e : Interpolation.IExt K) (me : Measure) (read : K → K → Prop) (cost : K → K → F K) (ax ay : Arr1 K)
    (row0 col0 row col score : F K) : Prop where
  empty : (∀ i < ax.n, ∀ j < ay.n, read (ay.get j) (ax.get i) → cost (ay.get j) (ax.get i) = .nan) → row = .nan ∧ col = .nan ∧ score = .nan
  minimised : (∃ i < ax.n, ∃ j < ay.n, read (ay.get j) (ax.get i) ∧ cost (ay.get j) (ax.get i) ≠ .nan) →
    ∃ (m : Arr2 (F K)) (f : K → K → F K) (x y : K), (m.h = ay.n ∧ m.w = ax.n) ∧
      (∀ i < ax.n, ∀ j < ay.n, read (ay.get j) (ax.get i) → cost (ay.get j) (ax.get i) ≠ .nan →
        m.get j i = toMinimise me (cost (ay.get j) (ax.get i))) ∧
      (∀ i < ax.n, ∀ j < ay.n, ¬ (read (ay.get j) (ax.get i) ∧ cost (ay.get j) (ax.get i) ≠ .nan) →
        RowFilled ax.n (fun p => (p.1 < ay.n ∧ p.2 < ax.n) ∧ read (ay.get p.1) (ax.get p.2) ∧ cost (ay.get p.1) (ax.get p.2) ≠ .nan)
          m.get j (m.get j i)) ∧
      e.interp2d ax ay m = .ok f ∧
      e.minimize f (col0, row0) ((ax.get 0, ax.get (ax.n - 1)), (ay.get 0, ay.get (ay.n - 1))) = (x, y) ∧
      col = .fin x ∧ row = .fin y ∧ score = OpticalFlow.fabs (f x y)

/-- Two disparities which are NaN together, or numbers of the extended intervals. -/
def InsideOrNan (fr lr fc lc : Int) (row col : F K) : Prop :=
  (row = .nan ∧ col = .nan) ∨ ∃ y x, row = .fin y ∧ col = .fin x ∧ ((fr : K) ≤ y ∧ y ≤ (lr : K)) ∧ (fc : K) ≤ x ∧ x ≤ (lc : K)

/-- Two configurations on the same full images, without estimation and with the same cost: the first one has an interpolation, the second one
has no refinement. -/
structure InterpAndNot (w : World K) (user user' p p' mc mc' inp inp' f : Fields) (n : Nat) (m : Measure) (pc : Pandora.Cost K) : Prop where
  inputs : user.get "input" = some (.obj inp) ∧ user'.get "input" = some (.obj inp')
  left : ∃ v, inp.get "left" = some v ∧ inp'.get "left" = some v
  right : ∃ v, inp.get "right" = some v ∧ inp'.get "right" = some v
  full : user.get "ROI" = none ∧ user'.get "ROI" = none
  pipelines : user.get "pipeline" = some (.obj p) ∧ user'.get "pipeline" = some (.obj p')
  noEstimation : p.get "estimation" = none ∧ p'.get "estimation" = none
  refinement : p.get "refinement" = some (.obj f) ∧ p'.get "refinement" = none
  method : f.get "refinement_method" = some (.str "interpolation")
  costs : p.get "matching_cost" = some (.obj mc) ∧ p'.get "matching_cost" = some (.obj mc')
  matcher : MatcherIs w mc n m pc ∧ MatcherIs w mc' n m pc

/-- The two disparities and the score of a pixel which has costs: the end of the minimisation, from `row0` and `col0`, of a surface interpolated
from the costs read for this pixel, between the first and the last disparities of the axes. -/
def InterpEnds (e : Interpolation.IExt K) (me : Measure) (read : K → K → Prop) (cost : K → K → F K) (ax ay : Arr1 K) (fr lr fc lc : Int)
    (row0 col0 row col score : F K) : Prop :=
  ∃ (m : Arr2 (F K)) (f : K → K → F K) (x y : K), (m.h = ay.n ∧ m.w = ax.n) ∧
    (∀ i < ax.n, ∀ j < ay.n, read (ay.get j) (ax.get i) → cost (ay.get j) (ax.get i) ≠ .nan →
      m.get j i = toMinimise me (cost (ay.get j) (ax.get i))) ∧
    (∀ i < ax.n, ∀ j < ay.n, ¬ (read (ay.get j) (ax.get i) ∧ cost (ay.get j) (ax.get i) ≠ .nan) →
      RowFilled ax.n (fun p => (p.1 < ay.n ∧ p.2 < ax.n) ∧ read (ay.get p.1) (ax.get p.2) ∧ cost (ay.get p.1) (ax.get p.2) ≠ .nan)
        m.get j (m.get j i)) ∧
    e.interp2d ax ay m = .ok f ∧
    e.minimize f (col0, row0) (((fc : K), (lc : K)), (fr : K), (lr : K)) = (x, y) ∧
    col = .fin x ∧ row = .fin y ∧ score = OpticalFlow.fabs (f x y) ∧
    ((fr : K) ≤ y ∧ y ≤ (lr : K)) ∧ (fc : K) ≤ x ∧ x ≤ (lc : K)

end Verif.Spec
