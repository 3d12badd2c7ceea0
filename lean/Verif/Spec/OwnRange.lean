import Verif.Spec.MatchingCost

/-!
# Specification for the range of each pixel
-/

namespace Verif.Spec

open Verif Verif.ImgTools

/-- All the pixels have a range of the same width (what `add_disparity_grid` produces: theorem `C10_right_range_opposite`). -/
def Uniform (M : MinMax) (h w : Nat) : Prop :=
  ∃ width : Int, ∀ r < h, ∀ c < w, M.hi.get r c - M.lo.get r c = width

/-- All the pixels have the same range. -/
def ConstantRange (M : MinMax) (h w : Nat) : Prop :=
  ∀ r < h, ∀ c < w, M.lo.get r c = M.src.1 ∧ M.hi.get r c = M.src.2

end Verif.Spec
