import Verif.Spec.Flowed
import Verif.Spec.Overlap

/-!
# Specification of optical flows on images with exchanged axes, on mirrored images and on two frames of a scene
-/

namespace Verif.Spec

open Verif Verif.MatchingCost Verif.ImgTools Verif.Disparity Verif.OpticalFlow

variable {K : Type} [Field K] [LinearOrder K]

/-- The rows of the window `b` are the columns of `a`. -/
def WindowExchanged (a b : Win K) : Prop := (b.h = a.w ∧ b.w = a.h) ∧ ∀ i < a.h, ∀ j < a.w, b.get j i = a.get i j

/-- The window `b` is `a` turned upside down (`tr`), mirrored left to right (`tc`), or both. -/
def WindowMirrored (tr tc : Bool) (a b : Win K) : Prop :=
  (b.h = a.h ∧ b.w = a.w) ∧ ∀ i < a.h, ∀ j < a.w, b.get (turned tr a.h i) (turned tc a.w j) = a.get i j

/-- A float, opposed when `t` holds. -/
def opposedF (t : Bool) (v : F K) : F K := if t then F.neg v else v

/-- When the equations are the same in another order, with their two coefficients changed by `τ`, the solution is changed by `τ`. -/
def SolvesThrough (e : Ext K) (τ : F K × F K → F K × F K) : Prop :=
  ∀ A B A' B', A.length = B.length → A'.length = B'.length → (A'.zip B').Perm ((A.zip B).map (Prod.map τ id)) →
    e.lstsq A' B' = (e.lstsq A B).map τ

/-- A window with exchanged axes, resampled with exchanged shifts, is the resampled window with exchanged axes. -/
def ResamplesExchanged (e : Ext K) : Prop := ∀ a b x y, WindowExchanged a b → WindowExchanged (e.warp a x y) (e.warp b y x)

/-- A mirrored window, resampled with opposed shifts, is the resampled window, mirrored. -/
def ResamplesMirrored (tr tc : Bool) (e : Ext K) : Prop :=
  ∀ a b x y, WindowMirrored tr tc a b → WindowMirrored tr tc (e.warp a x y) (e.warp b (opposedF tr x) (opposedF tc y))

/-- The invalid value is not a number, or is infinite, or is larger than one and than any disparity of the intervals. -/
def ApartFrom (invalid : F K) (d : Disp) (H W : Nat) : Prop :=
  ∀ v, invalid = .fin v → 1 < |v| ∧ ∀ x < H, ∀ y < W, ∀ z : K, ((initAt d x y - d.range : Int) : K) ≤ z → z ≤ ((initAt d x y + d.range : Int) : K) → |z| < |v|

/-- Two refined disparities: the second is the first, opposed when `t` holds, or both are invalid. -/
def OpposedOr (invalid : F K) (t : Bool) (d d' : F K) : Prop := d' = opposedF t d ∨ d = invalid ∧ d' = invalid

/-- The pixel `(a, b)` of a pair of images and the pixel `(a', b')` of another one see the same scene with windows of half size `half`, the right
ones displaced by `lr` to `hr` rows and `lc` to `hc` columns: the left windows hold the same, and each row, column and value of the right images so
reached is inside both or outside both and is the same. -/
structure SameFlowScene (half : Nat) (left right left' right' : Img K) (a b a' b' : Nat) (lr hr lc hc : Int) : Prop where
  window : ∀ x < 2 * half + 1, ∀ y < 2 * half + 1, left'.im (a' + x - half) (b' + y - half) = left.im (a + x - half) (b + y - half)
  rows : ∀ x : Int, lr - half ≤ x → x ≤ hr + half → ((0 ≤ a + x ∧ a + x < right.h) ↔ (0 ≤ a' + x ∧ a' + x < right'.h))
  cols : ∀ y : Int, lc - half ≤ y → y ≤ hc + half → ((0 ≤ b + y ∧ b + y < right.w) ↔ (0 ≤ b' + y ∧ b' + y < right'.w))
  values : ∀ x y : Int, lr - half ≤ x → x ≤ hr + half → lc - half ≤ y → y ≤ hc + half → 0 ≤ a + x → a + x < right.h → 0 ≤ b + y → b + y < right.w →
    right'.im (a' + x).toNat (b' + y).toNat = right.im (a + x).toNat (b + y).toNat

end Verif.Spec
