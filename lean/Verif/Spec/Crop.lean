import Verif.Spec.OwnRange
import Verif.Spec.Translation

/-! # Specification of a crop of the inputs -/

namespace Verif.Spec

open Verif Verif.ImgTools Verif.MatchingCost

variable {K : Type} [Field K] [LinearOrder K]

/-- `crop` is the part of `full` which begins at row `u` and column `v`. -/
structure CropOf (full crop : Img K) (u v : Nat) : Prop where
  rows : u + crop.h ≤ full.h
  cols : v + crop.w ≤ full.w
  row0 : crop.row0 = full.row0 + u
  col0 : crop.col0 = full.col0 + v
  im : ∀ r < crop.h, ∀ c < crop.w, crop.im r c = full.im (r + u) (c + v)
  noData : crop.noData = full.noData
  noDataAt : ∀ r < crop.h, ∀ c < crop.w, Pandora.noDataAt crop r c = Pandora.noDataAt full (r + u) (c + v)
  invalidAt : ∀ r < crop.h, ∀ c < crop.w, Pandora.invalidAt crop r c = Pandora.invalidAt full (r + u) (c + v)

/-- The ranges of the crop are those of the same pixels. -/
def CropRanges (full crop : MinMax) (h w u v : Nat) : Prop :=
  ∀ r < h, ∀ c < w, crop.lo.get r c = full.lo.get (r + u) (c + v) ∧ crop.hi.get r c = full.hi.get (r + u) (c + v)

/-- The inputs of a run on a region of interest are crops of the inputs of the run on the full images. -/
structure CropPair (full : Left K) (fullR : Img K) (crop : Left K) (cropR : Img K) (u v : Nat) : Prop where
  left : CropOf full.img crop.img u v
  right : CropOf fullR cropR u v
  rowRange : CropRanges full.rowDisp crop.rowDisp crop.img.h crop.img.w u v
  colRange : CropRanges full.colDisp crop.colDisp crop.img.h crop.img.w u v

/-- Constant ranges everywhere, or a step of one. -/
def SimpleRanges (cfg : Cfg) (left : Left K) : Prop :=
  (ConstantRange left.rowDisp left.img.h left.img.w ∧ ConstantRange left.colDisp left.img.h left.img.w) ∨
    (cfg.stepRow = 1 ∧ cfg.stepCol = 1)

/-- The margins of a region of interest contain the window of half-size `hw` displaced by `(dr, dc)`, and the window itself. -/
def MarginsCover [FloorRing K] (R : Roi) (hw : Nat) (dr dc : K) : Prop :=
  ((hw : Int) ≤ R.margins.up ∧ (hw : Int) - ⌊dr⌋ ≤ R.margins.up) ∧ ((hw : Int) ≤ R.margins.down ∧ (hw : Int) + ⌈dr⌉ ≤ R.margins.down) ∧
  ((hw : Int) ≤ R.margins.left ∧ (hw : Int) - ⌊dc⌋ ≤ R.margins.left) ∧ ((hw : Int) ≤ R.margins.right ∧ (hw : Int) + ⌈dc⌉ ≤ R.margins.right)

end Verif.Spec
