import Verif.Spec.Values

/-!
# Specification of the part of the images a pixel of the rasters depends on
-/

namespace Verif.Spec

open Verif Verif.Config Verif.MatchingCost Verif.ImgTools Verif.Disparity Verif.Main

variable {K : Type} [Field K] [LinearOrder K]

/-- Two configurations on full images, whose pipelines stop at the disparity maps without estimation, with the same subpixel factor, type of
measure and cost. The images may be different: `l`, `r` and `l'`, `r'` are their sections, in the files of `w` and `w'`. -/
structure OnTwoPairs (w w' : World K) (user user' p p' mc mc' inp inp' l r l' r' : Fields) (n : Nat) (m : Measure) (pc : Pandora.Cost K) :
    Prop where
  inputs : user.get "input" = some (.obj inp) ∧ user'.get "input" = some (.obj inp')
  lefts : inp.get "left" = some (.obj l) ∧ inp'.get "left" = some (.obj l')
  rights : inp.get "right" = some (.obj r) ∧ inp'.get "right" = some (.obj r')
  full : user.get "ROI" = none ∧ user'.get "ROI" = none
  pipelines : user.get "pipeline" = some (.obj p) ∧ user'.get "pipeline" = some (.obj p')
  noEstimation : p.get "estimation" = none ∧ p'.get "estimation" = none
  noRefinement : p.get "refinement" = none ∧ p'.get "refinement" = none
  costs : p.get "matching_cost" = some (.obj mc) ∧ p'.get "matching_cost" = some (.obj mc')
  matcher : MatcherIs w mc n m pc ∧ MatcherIs w' mc' n m pc

/-- The two pairs of images hold the same around the pixel at row `a` and column `b`: same values and same no-data flags in the left window
of half-size `hw`, same validity of its centre, and same values in the part of the right image covered by the windows displaced by the
intervals `[lor, hir]` and `[loc, hic]`. The mask of the right image is not read. -/
structure SameAround (hw : Nat) (left right left' right' : Img K) (a b : Nat) (lor hir loc hic : Int) : Prop where
  window : ∀ x y : Nat, a ≤ x + hw → x ≤ a + hw → b ≤ y + hw → y ≤ b + hw →
    left'.im x y = left.im x y ∧ Pandora.noDataAt left' x y = Pandora.noDataAt left x y
  centre : Pandora.invalidAt left' a b = Pandora.invalidAt left a b
  noData : right'.noData = right.noData
  searched : ∀ x y : Nat, x < right.h → y < right.w → (a : Int) + lor ≤ x + hw → (x : Int) ≤ a + hir + hw →
    (b : Int) + loc ≤ y + hw → (y : Int) ≤ b + hic + hw → right'.im x y = right.im x y

/-- The pixel at row `r` and column `c` has the same intervals. -/
def SameIntervalAt (d d' : Disp) (r c : Int) : Prop :=
  initAt d r c - d.range = initAt d' r c - d'.range ∧ initAt d r c + d.range = initAt d' r c + d'.range

end Verif.Spec
