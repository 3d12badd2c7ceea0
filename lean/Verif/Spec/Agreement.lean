import Verif.Spec.Criteria

/-! # Specification of the inputs on which criteria and costs agree -/

namespace Verif.Spec

open Verif Verif.ImgTools

variable {K : Type} [Field K] [LinearOrder K]

/-- The mask of the image, if any, flags exactly the pixels which have the no-data value and declares no pixel invalid. -/
structure FaithfulMask (img : Img K) : Prop where
  exact : ∀ r < img.h, ∀ c < img.w, (Pandora.noDataAt img r c = true ↔ img.im r c = img.noData)
  valid : ∀ r < img.h, ∀ c < img.w, Pandora.invalidAt img r c = false

/-- The pixels which are not flagged as no-data are finite numbers. -/
def FiniteData (img : Img K) : Prop :=
  ∀ r < img.h, ∀ c < img.w, Pandora.noDataAt img r c = false → ∃ k, img.im r c = .fin k

/-- The resampled rows are finite numbers different from the no-data value. -/
def ZoomData (z : Zoom K) (img : Img K) (s : Nat) : Prop :=
  ∀ ind, 1 ≤ ind → ind < s → ∀ t, t + 1 < img.h → ∀ c < img.w, ∃ k, z img s (ind + t * s) c = .fin k ∧ .fin k ≠ img.noData

/-- The measure of a window of finite numbers is not NaN. -/
def FiniteKernel (ker : List (F K × F K) → F K) : Prop :=
  ∀ l, (∀ p ∈ l, ∃ x y, p = (.fin x, .fin y)) → ker l ≠ .nan

end Verif.Spec
