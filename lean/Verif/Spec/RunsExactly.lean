import Verif.Spec.FlowMain
import Verif.Spec.Datasets

/-!
# Specification of the accepted configurations which run to the end
-/

namespace Verif.Spec

open Verif Verif.Config Verif.ImgTools Verif.Main

variable {K : Type} [Field K] [LinearOrder K]

/-- The initial disparity is the same for all the pixels of an image of `H` rows and `W` columns. -/
def FlatAt (d : Disp) (H W : Nat) : Prop := ∀ R C : Int, 0 ≤ R → R < H → 0 ≤ C → C < W → initAt d R C = initAt d 0 0

/-- The ranges allow the steps: steps of one, or an estimation, or initial disparities which do not depend on the pixel. -/
def RangesRun (w : World K) (user p0 : Fields) (H W sr sc : Nat) : Prop :=
  (sr = 1 ∧ sc = 1) ∨ p0.get "estimation" ≠ none ∨
    ∃ inp dRow dCol, user.get "input" = some (.obj inp) ∧ IsDisp w.files inp "row_disparity" dRow ∧
      IsDisp w.files inp "col_disparity" dCol ∧ FlatAt dRow H W ∧ FlatAt dCol H W

/-- The refinement allows the steps and the size of the image: a dichotomy with steps of one, an optical flow whose window fits around some
pixel, an interpolation, or no refinement. -/
def RefinementRuns (w : World K) (p0 mc : Fields) (H W sr sc : Nat) : Prop :=
  ∀ f, p0.get "refinement" = some (.obj f) →
    (f.get "refinement_method" = some (.str "dichotomy") → sr = 1 ∧ sc = 1) ∧
    (f.get "refinement_method" = some (.str "optical_flow") →
      ∃ half R C, HalfWindowIs w mc half ∧ InnerPoint 0 H sr half R ∧ InnerPoint 0 W sc half C)

end Verif.Spec
