import Verif.Spec.Searched
import Verif.Spec.Symmetry
import Verif.Spec.Local

/-!
# Specification of two executions with a dichotomy
-/

namespace Verif.Spec

open Verif Verif.Config Verif.MatchingCost Verif.ImgTools Verif.Disparity Verif.Main

variable {K : Type} [Field K] [LinearOrder K]

/-- A configuration on full images of `H` rows and `W` columns, without estimation, with disparities of `1 / n` pixel and a window cost, refined by
a dichotomy of `it` iterations whose filter has the kernel `g`. -/
structure Dichotomised [IsStrictOrderedRing K] [FloorRing K] (w : World K) (user p mc inp l r f : Fields) (H W : Nat) (dRow dCol : Disp)
    (invalid : F K) (n hw : Nat) (me : Measure) (ker : List (F K × F K) → F K) (it : Nat) (g : Kernel K) : Prop where
  input : user.get "input" = some (.obj inp)
  left : inp.get "left" = some (.obj l)
  right : inp.get "right" = some (.obj r)
  full : user.get "ROI" = none
  pipeline : user.get "pipeline" = some (.obj p)
  noEstimation : p.get "estimation" = none
  refinement : p.get "refinement" = some (.obj f)
  method : f.get "refinement_method" = some (.str "dichotomy")
  iterations : IterationsIs f it
  kernel : KernelIs w f it g
  cost : p.get "matching_cost" = some (.obj mc)
  matcher : MatcherIs w mc n me (Pandora.windowCost hw ker)
  asks : ∃ sr sc, Asks w user H W dRow dCol 0 ((H : Int) - 1) 0 ((W : Int) - 1) sr sc invalid

/-- A pair of disparities which the filter may read for the pixel at row `r` and column `c`: multiples of `1 / n`, in the intervals of the pixel
extended by the samples of the kernel. -/
def ReadPair (dRow dCol : Disp) (n before after : Nat) (r c : Int) (dr dc : K) : Prop :=
  (∃ a b : Int, dr * n = a ∧ dc * n = b) ∧
  (((initAt dRow r c - dRow.range - before : Int) : K) ≤ dr ∧ dr ≤ ((initAt dRow r c + dRow.range + after : Int) : K)) ∧
  (((initAt dCol r c - dCol.range - before : Int) : K) ≤ dc ∧ dc ≤ ((initAt dCol r c + dCol.range + after : Int) : K))

/-- A pixel after a search and after a longer one: the same three values, or disparities at most `d` apart and a score at least as good. -/
def FurtherPixel (me : Measure) (d : K) (row col score row' col' score' : F K) : Prop :=
  (row' = row ∧ col' = col ∧ score' = score) ∨
  ∃ x y x' y', (row = .fin x ∧ col = .fin y ∧ row' = .fin x' ∧ col' = .fin y') ∧ (|x' - x| ≤ d ∧ |y' - y| ≤ d) ∧
    (score ≠ .nan ∧ score' ≠ .nan) ∧ AtLeastAsGood me score' score

end Verif.Spec
