import Verif.Spec.FlowMain
import Verif.Spec.Symmetry
import Verif.Spec.Local

/-!
# Specification of two executions with an optical flow

The solver of the linear equations and the resampling of a window are external: what is asked from them is stated here.
-/

namespace Verif.Spec

open Verif Verif.Config Verif.MatchingCost Verif.ImgTools Verif.Disparity Verif.Main Verif.OpticalFlow

variable {K : Type} [Field K] [LinearOrder K]

/-- A configuration on full images of `H` rows and `W` columns, without estimation, with disparities of `1 / n` pixel and a window cost, refined by
an optical flow of `it` iterations on windows of half size `half`. -/
structure Flowed [IsStrictOrderedRing K] [FloorRing K] (w : World K) (user p mc inp l r f : Fields) (H W : Nat) (dRow dCol : Disp)
    (sr sc : Nat) (invalid : F K) (n hw : Nat) (me : Measure) (ker : List (F K × F K) → F K) (it half : Nat) : Prop where
  input : user.get "input" = some (.obj inp)
  left : inp.get "left" = some (.obj l)
  right : inp.get "right" = some (.obj r)
  full : user.get "ROI" = none
  pipeline : user.get "pipeline" = some (.obj p)
  noEstimation : p.get "estimation" = none
  refinement : p.get "refinement" = some (.obj f)
  method : f.get "refinement_method" = some (.str "optical_flow")
  iterations : FlowIterationsIs f it
  cost : p.get "matching_cost" = some (.obj mc)
  window : HalfWindowIs w mc half
  matcher : MatcherIs w mc n me (Pandora.windowCost hw ker)
  asks : Asks w user H W dRow dCol 0 ((H : Int) - 1) 0 ((W : Int) - 1) sr sc invalid

/-- The half size of the window, as Pandora gives it. -/
def OffsetContract (w : World K) : Prop :=
  ∀ g v n, g.get "window_size" = some v → IsInt true v n → w.offset (.obj g) = ((n - 1) / 2).toNat

/-- The window `b` is the window `a` seen through `g`. -/
def WindowSeen (g : F K → F K) (a b : Win K) : Prop :=
  (b.h = a.h ∧ b.w = a.w) ∧ ∀ i < a.h, ∀ j < a.w, b.get i j = g (a.get i j)

/-- A resampled window has the same size. -/
def KeepsSize (e : Ext K) : Prop := ∀ a x y, (e.warp a x y).h = a.h ∧ (e.warp a x y).w = a.w

/-- The resampling of a window seen through `g` is the resampling of the window, seen through `g`. -/
def ResamplesThrough (e : Ext K) (g : F K → F K) : Prop :=
  ∀ a b x y, WindowSeen g a b → WindowSeen g (e.warp a x y) (e.warp b x y)

/-- Multiplying all the equations by `k` does not change their solution. -/
def SolvesScaled (e : Ext K) (k : K) : Prop :=
  ∀ A B, e.lstsq (A.map (Prod.map (F.mul (.fin k)) (F.mul (.fin k)))) (B.map (F.mul (.fin k))) = e.lstsq A B

/-- The pairs of images hold the same around the pixel at row `a` and column `b`: windows of half size `half`, the right one at any displacement
of the intervals or at no displacement. -/
structure SameFlowAround (half : Nat) (left right left' right' : Img K) (a b : Nat) (lor hir loc hic : Int) : Prop where
  window : ∀ x y : Nat, a ≤ x + half → x ≤ a + half → b ≤ y + half → y ≤ b + half → left'.im x y = left.im x y
  searched : ∀ x y : Nat, x < right.h → y < right.w → (a : Int) + min lor 0 ≤ x + half → (x : Int) ≤ a + max hir 0 + half →
    (b : Int) + min loc 0 ≤ y + half → (y : Int) ≤ b + max hic 0 + half → right'.im x y = right.im x y

end Verif.Spec
