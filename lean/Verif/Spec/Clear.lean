import Verif.Spec.Symmetry

/-!
# Images without no-data, with a no-data value which no interpolation reaches
-/

namespace Verif.Spec

open Verif Verif.ImgTools

variable {K : Type} [Field K] [LinearOrder K]

/-- Every pixel holds a number larger than the no-data value. -/
def ClearAbove (img : Img K) : Prop :=
  ∃ nd : K, img.noData = .fin nd ∧ ∀ x < img.h, ∀ y < img.w, ∃ v : K, img.im x y = .fin v ∧ nd < v

end Verif.Spec
