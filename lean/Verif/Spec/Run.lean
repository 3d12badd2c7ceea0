import Verif.Spec.Machine
import Verif.Model.Run

/-!
# Specification of a whole run

The steps one after the other, without machine, attributes nor names.
-/

namespace Verif.Spec

open Verif Verif.Machine Verif.Filters Verif.ImgTools Verif.MatchingCost Verif.Disparity Verif.Estimation Verif.Run

/-- A complete pipeline: an estimation or not, the matching cost, the disparity, any number of refinements with any suffixes. -/
structure Plan (K : Type) where
  estimation : Option (Int × Int × Nat)
  cfg : MatchingCost.Cfg
  offset : Nat
  cost : Pandora.Cost K
  invalid : F K
  refinements : List (String × StepCfg K)

/-- The configuration written for a plan. -/
def Plan.toPipeline {K : Type} (p : Plan K) : Pipeline (StepCfg K) :=
  (match p.estimation with
    | none => []
    | some (a, b, s) => [("estimation", .estimation a b s)]) ++
  [("matching_cost", .matchingCost p.cfg p.offset p.cost), ("disparity", .disparity p.invalid)] ++ p.refinements

/-- The names are usable: those of the refinements are `refinement`, with or without suffix, and are all different. -/
def Plan.Named {K : Type} (p : Plan K) : Prop :=
  (∀ q ∈ p.refinements, stepOf q.1 = "refinement") ∧ (p.refinements.map Prod.fst).Nodup

variable {K : Type} [Field K] [LinearOrder K] [IsStrictOrderedRing K] [FloorRing K]

/-- The three maps. -/
structure Maps (K : Type) where
  row : Arr2 (F K)
  col : Arr2 (F K)
  score : Arr2 (F K)

/-- The left image of the matching: its ranges are around the rounded opposite of the shifts when there is an estimation. -/
def searched (e : Env K) (p : Plan K) (left : Left K) (right : Img K) : Except Err (Left K) :=
  match p.estimation with
  | none => .ok left
  | some (rangeRow, rangeCol, sf) =>
    match e.correlation left.img right sf with
    | (.fin a, .fin b) =>
      let grid (i range : Int) : MinMax :=
        ⟨⟨left.img.h, left.img.w, fun _ _ => i - range⟩, ⟨left.img.h, left.img.w, fun _ _ => i + range⟩, (i - range, i + range)⟩
      .ok ⟨left.img, grid (pyRound (-b)) rangeCol, grid (pyRound (-a)) rangeRow⟩
    | _ => .error .valueError

/-- A refinement: the new maps from the volumes and the maps. -/
def refined (e : Env K) (p : Plan K) (left : Left K) (right : Img K) (cv : CostVolumes K) (m : Maps K) :
    StepCfg K → Except Err (Maps K)
  | .dichotomy f n => do
    let o ← Dichotomy.refinementMethod f n cv p.invalid m.row m.col
      ⟨left.rowDisp.lo, left.rowDisp.hi, left.colDisp.lo, left.colDisp.hi⟩
    return ⟨o.row, o.col, o.cost⟩
  | .opticalFlow c => do
    let o ← OpticalFlow.refinementMethod e.flow e.junk c ⟨cv.row, cv.col, p.offset, p.cfg.stepRow, p.cfg.stepCol⟩ p.invalid m.row
      m.col left.img right left.rowDisp left.colDisp
    return ⟨o.2, o.1, m.score⟩
  | .interpolation => do
    let o ← Interpolation.refinementMethod e.interp cv m.row m.col
    return ⟨o.2.1, o.1, o.2.2⟩
  | _ => .error .keyError

/-- All the refinements in order; maps which have not the size of the volumes are refused. -/
def refinedAll (e : Env K) (p : Plan K) (left : Left K) (right : Img K) (cv : CostVolumes K) :
    List (StepCfg K) → Maps K → Except Err (Maps K)
  | [], m => .ok m
  | c :: l, m => do
    let o ← refined e p left right cv m c
    if o.row.h = cv.row.n ∧ o.row.w = cv.col.n ∧ o.col.h = cv.row.n ∧ o.col.w = cv.col.n ∧ o.score.h = cv.row.n ∧
      o.score.w = cv.col.n then refinedAll e p left right cv l o
    else .error .valueError

/-- The maps a run has to give, with the coordinates of the volumes. -/
def expectedMaps (e : Env K) (roi : Option Roi) (margins : Option Margins) (left : Left K) (right : Img K) (p : Plan K) :
    Except Err (MapsData K) := do
  let left ← searched e p left right
  let cv ← computeCostVolumes e.zoom p.cost p.cfg roi left right margins
  let out ← computeDispMaps p.invalid cv
  let m ← refinedAll e p left right cv (p.refinements.map Prod.snd) ⟨out.row, out.col, out.score⟩
  return ⟨cv.row, cv.col, m.row, m.col, m.score, p.invalid⟩

end Verif.Spec
