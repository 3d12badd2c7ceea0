import Verif.Props.Run
import Verif.Props.DichotomyPipeline

/-!
# Property C72: whole runs with an estimation
-/

namespace Verif.Props

open Verif Verif.Machine Verif.Filters Verif.ImgTools Verif.MatchingCost Verif.Disparity Verif.Estimation Verif.Run Verif.Spec

set_option linter.unusedSectionVars false

variable {K : Type} [Field K] [LinearOrder K] [IsStrictOrderedRing K] [FloorRing K]

/-- The ranges of the matching after an estimation. -/
theorem searched_ranges (e : Env K) (p : Plan K) (left l : Left K) (right : Img K) (rr rc : Int) (sf : Nat) (sr sc : ℚ)
    (he : p.estimation = some (rr, rc, sf)) (hc : e.correlation left.img right sf = (.fin sr, .fin sc))
    (h : searched e p left right = .ok l) :
    l.img = left.img ∧
    getMinMax l.img.row0 l.img.col0 l.img.h l.img.w ⟨.const (pyRound (-sr)), rr⟩ false = .ok l.rowDisp ∧
    getMinMax l.img.row0 l.img.col0 l.img.h l.img.w ⟨.const (pyRound (-sc)), rc⟩ false = .ok l.colDisp := by
  unfold searched at h
  rw [he] at h
  simp only [hc, Except.ok.injEq] at h
  subst h
  simp [getMinMax, sgn]

/-- Distance to the displacement from the distance to its rounding. -/
theorem near_of_rounding {x : ℚ} {range : Int} {d : K} (h1 : ((pyRound x - range : Int) : K) ≤ d)
    (h2 : d ≤ ((pyRound x + range : Int) : K)) : |d - (x : K)| ≤ range + 1 / 2 := by
  have h := (pyRound_isRounding x).1
  have h' : |(x : K) - (pyRound x : K)| ≤ 1 / 2 := by
    have : (((|x - (pyRound x : ℚ)|) : ℚ) : K) ≤ ((1 / 2 : ℚ) : K) := by exact_mod_cast h
    simpa using this
  rw [abs_le] at h' ⊢
  push_cast at h1 h2
  constructor <;> linarith [h'.1, h'.2]

/-- The result of a run is the composition. -/
theorem run_ok_maps (e : Env K) (roi : Option Roi) (left : Left K) (right : Img K) (p : Plan K) (hn : p.Named) (d : Attrs K)
    (x : Option (MapsData K)) (h : (run e roi left right p.toPipeline (fresh d)).2 = .ok x) :
    ∃ m, x = some m ∧ expectedMaps e roi d.margins left right p = .ok m := by
  rw [(C70_run_composes e roi left right p hn d).1] at h
  cases hm : expectedMaps e roi d.margins left right p with
  | error y => rw [hm] at h; simp [Except.map] at h
  | ok m =>
    rw [hm] at h
    simp only [Except.map, Except.ok.injEq] at h
    exact ⟨m, h.symm, rfl⟩

section
variable (e : Env K) (roi : Option Roi) (left : Left K) (right : Img K) (p : Plan K) (d : Attrs K) {rr rc : Int} {sf : Nat} {sr sc : ℚ}
  {x : Option (MapsData K)}

/-- C72: a run with an estimation and without refinement, whatever the ranges the left image had before, the region of interest, the
steps, the subpixel factor and the history of the machine: each pixel of the maps is invalid in the three maps, or its row (column)
disparity is at most `range_row + 1/2` (`range_col + 1/2`) away from the estimated displacement, the opposite of the row (column)
shift. -/
theorem C72_run_near_estimation (hn : p.Named) (he : p.estimation = some (rr, rc, sf))
    (hc : e.correlation left.img right sf = (.fin sr, .fin sc)) (hrr : 0 ≤ rr) (hrc : 0 ≤ rc) (href : p.refinements = [])
    (hh : 0 < left.img.h) (hw : 0 < left.img.w) (hH : right.h = left.img.h) (hW : right.w = left.img.w)
    (hpc : CostContract p.cost) (hs : 0 < p.cfg.subpix) (h1 : 1 ≤ p.cfg.stepRow) (h2 : 1 ≤ p.cfg.stepCol)
    (hrun : (run e roi left right p.toPipeline (fresh d)).2 = .ok x) :
    ∃ m, x = some m ∧ ∀ r < m.row.n, ∀ c < m.col.n,
      (m.rowMap.get r c = p.invalid ∧ m.colMap.get r c = p.invalid ∧ m.score.get r c = p.invalid) ∨
      ∃ dr dc, m.rowMap.get r c = .fin dr ∧ m.colMap.get r c = .fin dc ∧
        |dr - ((-sr : ℚ) : K)| ≤ rr + 1 / 2 ∧ |dc - ((-sc : ℚ) : K)| ≤ rc + 1 / 2 := by
  obtain ⟨m, rfl, hm⟩ := run_ok_maps e roi left right p hn d x hrun
  refine ⟨m, rfl, ?_⟩
  unfold expectedMaps at hm
  cases hl : searched e p left right with
  | error y => rw [hl] at hm; simp [bind, Except.bind] at hm
  | ok l =>
    obtain ⟨a1, a2, a3⟩ := searched_ranges e p left l right rr rc sf sr sc he hc hl
    rw [hl] at hm
    simp only [bind, Except.bind, pure, Except.pure, href, List.map_nil, refinedAll] at hm
    cases hcv : computeCostVolumes e.zoom p.cost p.cfg roi l right d.margins with
    | error y => rw [hcv] at hm; simp at hm
    | ok cv =>
      rw [hcv] at hm
      simp only at hm
      cases ho : computeDispMaps p.invalid cv with
      | error y => rw [ho] at hm; simp at hm
      | ok out =>
        rw [ho] at hm
        simp only [Except.ok.injEq] at hm
        subst hm
        intro r hr c hcc
        simp only at hr hcc ⊢
        rcases C09_configured_range ⟨.const (pyRound (-sr)), rr⟩ ⟨.const (pyRound (-sc)), rc⟩ hrr hrc (by rw [a1]; exact hh)
          (by rw [a1]; exact hw) (by rw [a1]; exact hH) (by rw [a1]; exact hW) trivial trivial a2 a3 hpc hs h1 h2 hcv ho
          ⟨hr, hcc⟩ with h | ⟨dr, dc, e1, e2, ⟨b1, b2⟩, ⟨b3, b4⟩⟩
        · exact Or.inl h
        · exact Or.inr ⟨dr, dc, e1, e2, near_of_rounding b1 b2, near_of_rounding b3 b4⟩

/-- C72 with a dichotomy: the same bound holds for the refined maps, with a step of one, a subpixel factor which is a power of two and
the margins of the filter; the run never fails in the refinement. -/
theorem C72_run_refined_near_estimation (hn : p.Named) (he : p.estimation = some (rr, rc, sf))
    (hc : e.correlation left.img right sf = (.fin sr, .fin sc)) (hrr : 0 ≤ rr) (hrc : 0 ≤ rc) {name : String} {f : IFilter K}
    {it k : Nat} {mg : Margins} (href : p.refinements = [(name, .dichotomy f it)]) (hmg : d.margins = some mg)
    (hfit : FitsMargins f.left f.up f.size mg) (hco : HasCoeffs f it)
    (hh : 0 < left.img.h) (hw : 0 < left.img.w) (hH : right.h = left.img.h) (hW : right.w = left.img.w)
    (hpc : CostContract p.cost) (hs : p.cfg.subpix = 2 ^ k) (h1 : p.cfg.stepRow = 1) (h2 : p.cfg.stepCol = 1)
    (hrun : (run e roi left right p.toPipeline (fresh d)).2 = .ok x) :
    ∃ m, x = some m ∧ ∀ r < left.img.h, ∀ c < left.img.w,
      (m.rowMap.get r c = p.invalid ∧ m.colMap.get r c = p.invalid) ∨
      ∃ dr dc, m.rowMap.get r c = .fin dr ∧ m.colMap.get r c = .fin dc ∧
        |dr - ((-sr : ℚ) : K)| ≤ rr + 1 / 2 ∧ |dc - ((-sc : ℚ) : K)| ≤ rc + 1 / 2 := by
  obtain ⟨m, rfl, hm⟩ := run_ok_maps e roi left right p hn d x hrun
  refine ⟨m, rfl, ?_⟩
  unfold expectedMaps at hm
  cases hl : searched e p left right with
  | error y => rw [hl] at hm; simp [bind, Except.bind] at hm
  | ok l =>
    obtain ⟨a1, a2, a3⟩ := searched_ranges e p left l right rr rc sf sr sc he hc hl
    rw [hl, hmg] at hm
    simp only [bind, Except.bind, pure, Except.pure, href, List.map_cons, List.map_nil, refinedAll] at hm
    cases hcv : computeCostVolumes e.zoom p.cost p.cfg roi l right (some mg) with
    | error y => rw [hcv] at hm; simp at hm
    | ok cv =>
      rw [hcv] at hm
      simp only at hm
      cases ho : computeDispMaps p.invalid cv with
      | error y => rw [ho] at hm; simp at hm
      | ok out =>
        rw [ho] at hm
        simp only at hm
        have hp : PairOk l right := ⟨by rw [a1]; exact hh, by rw [a1]; exact hw, by rw [a1]; exact hH, by rw [a1]; exact hW,
          ranges_wf _ _ _ _ _ _ _ (by rw [a1]; exact hh) (by rw [a1]; exact hw) hrc a3,
          ranges_wf _ _ _ _ _ _ _ (by rw [a1]; exact hh) (by rw [a1]; exact hw) hrr a2⟩
        obtain ⟨o, h4, h5⟩ := C46_pipeline (f := f) (it := it) hp (uniform_of_config _ _ _ _ _ _ a2) (uniform_of_config _ _ _ _ _ _ a3)
          hpc hs h1 h2 hfit hco hcv ho
        unfold gridsOf at h4
        simp only [refined, bind, Except.bind, pure, Except.pure, h4] at hm
        split at hm
        · simp at hm
        · rename_i m' hm'
          split at hm'
          · simp only [Except.ok.injEq] at hm' hm
            subst hm' hm
            intro r hr c hcc
            simp only
            rcases h5 r (by rw [a1]; exact hr) c (by rw [a1]; exact hcc) with ⟨-, -, q1, q2⟩ | ⟨⟨dr, q1, b1, b2⟩, ⟨dc, q2, b3, b4⟩, -⟩
            · exact Or.inl ⟨q1, q2⟩
            · have g1 : l.rowDisp.lo.get r c = pyRound (-sr) - rr ∧ l.rowDisp.hi.get r c = pyRound (-sr) + rr := by
                simp only [getMinMax, sgn, Bool.false_eq_true, if_false, mul_one, Except.ok.injEq] at a2
                rw [← a2]; exact ⟨rfl, rfl⟩
              have g2 : l.colDisp.lo.get r c = pyRound (-sc) - rc ∧ l.colDisp.hi.get r c = pyRound (-sc) + rc := by
                simp only [getMinMax, sgn, Bool.false_eq_true, if_false, mul_one, Except.ok.injEq] at a3
                rw [← a3]; exact ⟨rfl, rfl⟩
              rw [g1.1] at b1; rw [g1.2] at b2; rw [g2.1] at b3; rw [g2.2] at b4
              exact Or.inr ⟨dr, dc, q1, q2, near_of_rounding b1 b2, near_of_rounding b3 b4⟩
          · simp at hm'

end

/-- The example of `Props/Run.lean` meets the hypotheses of C72: estimated displacement (0.6, -0.2), ranges 1. -/
example : exPlan.Named ∧ exPlan.estimation = some (1, 1, 1) ∧ exEnv.correlation exLeftImg exRightImg 1 = (.fin (-3 / 5), .fin (1 / 5)) ∧
    CostContract exPlan.cost ∧
    ∃ x, (run exEnv none exLeft exRightImg exPlan.toPipeline (fresh Attrs.init)).2 = .ok x := by
  refine ⟨⟨by simp [exPlan], by simp [exPlan]⟩, rfl, rfl, exCost_contract, ?_⟩
  cases h : (run exEnv none exLeft exRightImg exPlan.toPipeline (fresh Attrs.init)).2 with
  | ok x => exact ⟨x, rfl⟩
  | error y =>
    have : (run exEnv none exLeft exRightImg exPlan.toPipeline (fresh Attrs.init)).2.toOption.isSome = true := by decide +kernel
    rw [h] at this
    simp [Except.toOption] at this

/-- The same with a bicubic dichotomy of two iterations, the margins of the filter being those recorded by the check. -/
def exRefined : Plan ℚ := { exPlan with refinements := [("refinement", .dichotomy bicubic 2)] }

example : exRefined.Named ∧ FitsMargins (bicubic (K := ℚ)).left (bicubic (K := ℚ)).up (bicubic (K := ℚ)).size ⟨1, 1, 2, 2⟩ ∧
    ((run exEnv none exLeft exRightImg exRefined.toPipeline (fresh { Run.Attrs.init with margins := some ⟨1, 1, 2, 2⟩ })).2.toOption.bind
      id).map (fun m => (List.range 5).map fun r => m.rowMap.get r 1) = some [.fin 1, .fin 1, .fin 1, .fin 1, .fin 0] := by
  refine ⟨⟨?_, by simp [exRefined]⟩, by simp [FitsMargins, bicubic], ?_⟩
  · intro q hq
    simp only [exRefined, List.mem_singleton] at hq
    subst hq
    decide
  · decide +kernel

end Verif.Props
