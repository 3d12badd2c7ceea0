import Verif.Spec.Symmetry

/-!
# Specification of executions which only differ by the values of the no-data pixels
-/

namespace Verif.Spec

open Verif Verif.MatchingCost Verif.ImgTools Verif.Disparity

variable {K : Type} [Field K] [LinearOrder K]

/-- The left image `img'` is `img`, except the values of the pixels flagged as no-data. -/
structure OtherFlagged (img img' : Img K) : Prop where
  flags : ∀ x < img.h, ∀ y < img.w, Pandora.noDataAt img' x y = Pandora.noDataAt img x y
  valid : ∀ x < img.h, ∀ y < img.w, Pandora.invalidAt img' x y = Pandora.invalidAt img x y
  values : ∀ x < img.h, ∀ y < img.w, Pandora.noDataAt img x y = false → img'.im x y = img.im x y

/-- The right image `img'` is `img` with another no-data value: the same pixels hold it, and the other pixels are equal. -/
structure OtherNoData (img img' : Img K) : Prop where
  held : ∀ x < img.h, ∀ y < img.w, img'.im x y = img'.noData ↔ img.im x y = img.noData
  values : ∀ x < img.h, ∀ y < img.w, img.im x y ≠ img.noData → img'.im x y = img.im x y

end Verif.Spec
