import Verif.Spec.Whole

/-!
# Specification of executions on mirrored images, on images of another radiometry, on overlapping images and on images with more no-data
-/

namespace Verif.Spec

open Verif Verif.MatchingCost Verif.ImgTools Verif.Disparity

variable {K : Type} [Field K] [LinearOrder K]

/-- The index `x` of `n`, read from the other end when `t` holds. -/
def turned (t : Bool) (n x : Nat) : Nat := if t then n - 1 - x else x

/-- A displacement, read from the other end when `t` holds. -/
def opposed {α : Type} [Neg α] (t : Bool) (d : α) : α := if t then -d else d

/-- The image `img'` is `img` turned upside down (`tr`), mirrored left to right (`tc`), or both, with its masks. -/
structure Mirrored (tr tc : Bool) (img img' : Img K) : Prop where
  noData : img'.noData = img.noData
  values : ∀ x < img.h, ∀ y < img.w, img'.im (turned tr img.h x) (turned tc img.w y) = img.im x y
  flags : ∀ x < img.h, ∀ y < img.w, Pandora.noDataAt img' (turned tr img.h x) (turned tc img.w y) = Pandora.noDataAt img x y
  valid : ∀ x < img.h, ∀ y < img.w, Pandora.invalidAt img' (turned tr img.h x) (turned tc img.w y) = Pandora.invalidAt img x y

/-- The interval of `d'` at the mirrored pixel is the one of `d`, opposed when `t` holds. -/
def MirroredIntervals (tr tc t : Bool) (d d' : Disp) (H W : Nat) : Prop :=
  ∀ x < H, ∀ y < W, ∀ z : Int, (initAt d x y - d.range ≤ z ∧ z ≤ initAt d x y + d.range) ↔
    (initAt d' (turned tr H x : Nat) (turned tc W y : Nat) - d'.range ≤ opposed t z ∧
      opposed t z ≤ initAt d' (turned tr H x : Nat) (turned tc W y : Nat) + d'.range)

/-- `(x, y)` is the only pair of disparities which satisfies `reaches`. -/
def OnlyPair (reaches : Int → Int → Prop) (x y : Int) : Prop := ∀ x' y', reaches x' y' ↔ x' = x ∧ y' = y

/-- Two pixels without disparity, each with the invalid value of its execution. -/
def BothInvalid (invalid invalid' row col score row' col' score' : F K) : Prop :=
  row = invalid ∧ col = invalid ∧ score = invalid ∧ row' = invalid' ∧ col' = invalid' ∧ score' = invalid'

/-- The image `img'` is `img` seen through `g`: its values, and its no-data value which no other value becomes. -/
structure Regraded (g : F K → F K) (img img' : Img K) : Prop where
  noData : img'.noData = g img.noData
  values : ∀ x < img.h, ∀ y < img.w, img'.im x y = g (img.im x y)
  only : ∀ x < img.h, ∀ y < img.w, g (img.im x y) = g img.noData → img.im x y = img.noData
  flags : ∀ x < img.h, ∀ y < img.w, Pandora.noDataAt img' x y = Pandora.noDataAt img x y
  valid : ∀ x < img.h, ∀ y < img.w, Pandora.invalidAt img' x y = Pandora.invalidAt img x y

/-- The measure of windows seen through `gl` and `gr` is the measure seen through `φ`, which keeps the order of the scores. -/
structure Follows (ker : List (F K × F K) → F K) (gl gr φ : F K → F K) : Prop where
  measure : ∀ l, ker (l.map (Prod.map gl gr)) = φ (ker l)
  nan : ∀ s, φ s = .nan ↔ s = .nan
  order : ∀ s t, F.le (φ s) (φ t) = F.le s t

/-- An affine change of the values. -/
def affine (k c : K) (v : F K) : F K := F.add (F.mul (.fin k) v) (.fin c)

/-- The right windows displaced by the pairs of the intervals, at `(a, b)` of one pair of images and at `(a', b')` of another one, are inside
both or outside both, and hold the same values. -/
def SameDisplaced (hw : Nat) (dRow dCol : Disp) (left right left' right' : Img K) (a b a' b' : Nat) : Prop :=
  right'.noData = right.noData ∧ ∀ dr dc : Int, InIntervals dRow dCol a b dr dc →
    (BothInside hw left right dr dc a b ↔ BothInside hw left' right' dr dc a' b') ∧
    (BothInside hw left right dr dc a b → ∀ x < 2 * hw + 1, ∀ y < 2 * hw + 1,
      right'.im ((a' : Int) + dr + x - hw).toNat ((b' : Int) + dc + y - hw).toNat =
        right.im ((a : Int) + dr + x - hw).toNat ((b : Int) + dc + y - hw).toNat)

/-- The left windows at `(a, b)` of an image and at `(a', b')` of another one hold the same values and flags. -/
def SameWindow (hw : Nat) (left left' : Img K) (a b a' b' : Nat) : Prop :=
  (∀ x < 2 * hw + 1, ∀ y < 2 * hw + 1, left'.im (a' + x - hw) (b' + y - hw) = left.im (a + x - hw) (b + y - hw) ∧
    Pandora.noDataAt left' (a' + x - hw) (b' + y - hw) = Pandora.noDataAt left (a + x - hw) (b + y - hw)) ∧
  Pandora.invalidAt left' a' b' = Pandora.invalidAt left a b

/-- The intervals of `d` at a pixel and of `d'` at another one are the same. -/
def SameIntervalMoved (d d' : Disp) (r c r' c' : Int) : Prop :=
  initAt d r c - d.range = initAt d' r' c' - d'.range ∧ initAt d r c + d.range = initAt d' r' c' + d'.range

/-- The left image `img'` is `img` with more pixels flagged as no-data or invalid. -/
structure MoreFlags (img img' : Img K) : Prop where
  values : ∀ x < img.h, ∀ y < img.w, Pandora.noDataAt img' x y = false → Pandora.noDataAt img x y = false ∧ img'.im x y = img.im x y
  valid : ∀ x < img.h, ∀ y < img.w, Pandora.invalidAt img' x y = false → Pandora.invalidAt img x y = false

/-- The right image `img'` is `img` with more pixels equal to the no-data value. -/
def MoreNoData (img img' : Img K) : Prop :=
  img'.noData = img.noData ∧ ∀ x < img.h, ∀ y < img.w, img'.im x y = img.im x y ∨ img'.im x y = img.noData

end Verif.Spec
