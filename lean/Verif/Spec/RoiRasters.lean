import Verif.Spec.Steps
import Verif.Spec.Crop
import Mathlib.Algebra.Order.Floor.Defs

/-!
# Specification of the rasters of a region of interest against those of the full images
-/

namespace Verif.Spec

open Verif Verif.Config Verif.ImgTools Verif.MatchingCost Verif.Disparity Verif.Main

variable {K : Type} [Field K] [LinearOrder K]

/-- What is assumed from Pandora's reading of a region: the pixels of the region are those of the whole image. -/
def CropsWhole (w : World K) (H W : Nat) : Prop :=
  ∀ v R full crop, w.files.read v none = .ok full → w.files.read v (some R) = .ok crop → CropOk crop R H W →
    CropOf full crop crop.row0.toNat crop.col0.toNat

/-- The window of half-size `hw` centred on the row `r` and the column `c`, and the same window displaced by `dr` rows and `dc` columns,
are in the zone of the image. -/
def FitsZone [IsStrictOrderedRing K] [FloorRing K] (hw : Nat) (img : Img K) (r c : Int) (dr dc : K) : Prop :=
  (img.row0 + hw ≤ r ∧ r + hw < img.row0 + img.h ∧ img.col0 + hw ≤ c ∧ c + hw < img.col0 + img.w) ∧
  (img.row0 + hw ≤ r + ⌊dr⌋ ∧ r + ⌈dr⌉ + hw < img.row0 + img.h ∧ img.col0 + hw ≤ c + ⌊dc⌋ ∧ c + ⌈dc⌉ + hw < img.col0 + img.w)

end Verif.Spec
