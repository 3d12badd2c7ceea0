import Verif.Spec.Refined
import Verif.Spec.OpticalFlow

/-!
# Specification of an execution with an optical flow
-/

namespace Verif.Spec

open Verif Verif.Config Verif.MatchingCost Verif.ImgTools Verif.Disparity Verif.Main

variable {K : Type} [Field K] [LinearOrder K]

/-- The half size of the window of the matching cost section of the user, as completed by Pandora. -/
def HalfWindowIs (w : World K) (mc : Fields) (half : Nat) : Prop :=
  ∃ c st wn mar, matchingCostCheck w.pandora (J.obj mc).convAll = .ok (c, st, wn, mar) ∧ IsInt true wn ((2 * half + 1 : Nat) : Int)

/-- A coordinate `x` of an axis of `n` pixels from `first`, where one point out of `step` is kept: there is another point on each side, at
least `half` away. -/
def InnerPoint (first : Int) (n step half : Nat) (x : Int) : Prop :=
  (∃ k : Nat, half ≤ k * step ∧ first ≤ x - (k : Int) * step) ∧ ∃ k : Nat, half ≤ k * step ∧ x + (k : Int) * step < first + n

/-- The disparities of the pixel of row `r` and column `c` after an optical flow from `row0` and `col0`: the trajectory of the window of the
right image displaced by the integer parts of these disparities, kept when it ends strictly inside the intervals. -/
def FlowPixel (e : OpticalFlow.Ext K) (half it : Nat) (left right : Img K) (r c : Int) (lor hir loc hic : Int)
    (invalid row0 col0 row col : F K) : Prop :=
  ∃ sr sc, StartShift invalid row0 sr ∧ StartShift invalid col0 sc ∧
    ∃ t, t = trajectory (OpticalFlow.lucasKanade e invalid) e.warp (windowOf left half r c) it
      (rightWindow right half (r + sr) (c + sc)) (row0, col0) ∧
      row = insideOr invalid lor hir t.1 ∧ col = insideOr invalid loc hic t.2

/-- Two disparities moved by at most `n` from `row0` and `col0`, when they are neither invalid nor NaN. -/
def NearPair (n : Nat) (invalid row0 col0 row col : F K) : Prop :=
  ∀ x y, row0 = .fin x → col0 = .fin y → (row = invalid ∨ row = .nan ∨ ∃ k, row = .fin k ∧ |k - x| ≤ n) ∧
    (col = invalid ∨ col = .nan ∨ ∃ k, col = .fin k ∧ |k - y| ≤ n)

/-- A disparity strictly inside an interval, or invalid, or NaN. -/
def InsideOr (lo hi : Int) (invalid d : F K) : Prop := d = .nan ∨ d = invalid ∨ StrictlyInside lo hi d

/-- Two configurations on the same full images, without estimation: the first one refines with an optical flow of `it` iterations, the second
one stops at the disparity maps. They have the same subpixel factor, type of measure and cost. -/
structure FlowAndNot (w : World K) (user user' p p' mc mc' inp inp' f : Fields) (n it half : Nat) (m : Measure) (pc : Pandora.Cost K) :
    Prop where
  inputs : user.get "input" = some (.obj inp) ∧ user'.get "input" = some (.obj inp')
  left : ∃ v, inp.get "left" = some v ∧ inp'.get "left" = some v
  right : ∃ v, inp.get "right" = some v ∧ inp'.get "right" = some v
  full : user.get "ROI" = none ∧ user'.get "ROI" = none
  pipelines : user.get "pipeline" = some (.obj p) ∧ user'.get "pipeline" = some (.obj p')
  noEstimation : p.get "estimation" = none ∧ p'.get "estimation" = none
  refinement : p.get "refinement" = some (.obj f) ∧ p'.get "refinement" = none
  method : f.get "refinement_method" = some (.str "optical_flow")
  iterations : FlowIterationsIs f it
  costs : p.get "matching_cost" = some (.obj mc) ∧ p'.get "matching_cost" = some (.obj mc')
  window : HalfWindowIs w mc half
  matcher : MatcherIs w mc n m pc ∧ MatcherIs w mc' n m pc

end Verif.Spec
