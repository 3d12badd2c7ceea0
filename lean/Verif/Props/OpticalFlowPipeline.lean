import Verif.Props.OpticalFlowCases
import Verif.Props.DichotomyPipeline

/-!
# The optical flow after the matching cost and disparity steps: C50, C52, C61
-/

set_option linter.unusedSectionVars false

namespace Verif.Props

open Verif Verif.ImgTools Verif.Disparity Verif.OpticalFlow Verif.Spec Verif.MatchingCost

variable {K : Type} [Field K] [LinearOrder K] [IsStrictOrderedRing K] [FloorRing K]
variable {z : Zoom K} {pc : Pandora.Cost K} {cfg : MatchingCost.Cfg} {roi : Option Roi} {left : Left K} {right : Img K}
  {mg : Option Margins} {cv : CostVolumes K} {invalid : F K} {e : Ext K} {junk : Nat → Nat → Win K}
  {oc orr : Arr2 (F K)}

/-- The coordinates of the cost volumes and the attributes used by the optical flow; `half` is `offset_row_col`. -/
def coordsOf (cv : CostVolumes K) (cfg : MatchingCost.Cfg) (half : Nat) : CostCoords :=
  ⟨cv.row, cv.col, half, cfg.stepRow, cfg.stepCol⟩

theorem maps_shape {d : DispOut K} (h : computeDispMaps invalid cv = .ok d) :
    (d.row.h = cv.row.n ∧ d.row.w = cv.col.n) ∧ d.col.h = cv.row.n ∧ d.col.w = cv.col.n := by
  obtain ⟨h1, h2⟩ := window_pos_of_ok h
  obtain ⟨out', ho, a, b, _, _, _⟩ := computeDispMaps_char invalid cv h1 h2
  rw [h] at ho
  cases ho
  exact ⟨b, a⟩

/-- The pipeline meets the hypotheses of the theorems on the optical flow. -/
theorem flow_setting (hp : PairOk left right) (hs : 0 < cfg.subpix) (h1 : 1 ≤ cfg.stepRow) (h2 : 1 ≤ cfg.stepCol)
    (h : computeCostVolumes z pc cfg roi left right mg = .ok cv) {d : DispOut K} (ho : computeDispMaps invalid cv = .ok d)
    (half it : Nat) (hh : 1 ≤ half) :
    FlowSetting ⟨2 * half + 1, it⟩ (coordsOf cv cfg half) d.row d.col left.img
      (startCoord (rowMargin roi) left.img.row0 cfg.stepRow) (startCoord (colMargin roi) left.img.col0 cfg.stepCol) := by
  obtain ⟨e1, e2, -⟩ := compute_char hp hs h1 h
  rw [rowCoords_eq] at e1
  rw [colCoords_eq] at e2
  obtain ⟨m1, m2⟩ := maps_shape ho
  refine ⟨⟨h1, fun k _ => ?_⟩, ⟨h2, fun k _ => ?_⟩, rfl, hh, ?_, ?_, m1, m2⟩
  · show cv.row.get k = _; rw [e1]; rfl
  · show cv.col.get k = _; rw [e2]; rfl
  · intro k hk
    have hk' : k < cv.row.n := hk
    rw [e1] at hk'
    have := coords_in (rowMargin roi) left.img.row0 left.img.h cfg.stepRow h1 hk'
    rw [← e1] at this
    show _ ≤ cv.row.get k ∧ cv.row.get k < _
    omega
  · intro k hk
    have hk' : k < cv.col.n := hk
    rw [e2] at hk'
    have := coords_in (colMargin roi) left.img.col0 left.img.w cfg.stepCol h2 hk'
    rw [← e2] at this
    show _ ≤ cv.col.get k ∧ cv.col.get k < _
    omega

theorem arange_count (c0 : Int) (n step : Nat) (hs : 1 ≤ step) : (arangeA c0 (c0 + n) step).n = (n + step - 1) / step := by
  unfold arangeA
  simp only
  have : c0 + (n : Int) - c0 + ((step - 1 : Nat) : Int) = ((n + step - 1 : Nat) : Int) := by omega
  rw [this, ← Int.natCast_ediv, Int.toNat_natCast]

/-- The optical flow runs when a window fits and the grids, of which one point out of `step` is kept from the first pixel of the image, have as
many points as the cost volumes. -/
theorem flow_runs (hp : PairOk left right) (hs : 0 < cfg.subpix) (h1 : 1 ≤ cfg.stepRow) (h2 : 1 ≤ cfg.stepCol)
    (h : computeCostVolumes z pc cfg roi left right mg = .ok cv) {d : DispOut K} (ho : computeDispMaps invalid cv = .ok d)
    (half it : Nat) (hh : 1 ≤ half)
    (c1 : cv.row.n = (left.img.h + cfg.stepRow - 1) / cfg.stepRow) (c2 : cv.col.n = (left.img.w + cfg.stepCol - 1) / cfg.stepCol)
    (hr : ∃ k, InnerIdx cv.row half k) (hc : ∃ k, InnerIdx cv.col half k) :
    ∃ out, refinementMethod e junk ⟨2 * half + 1, it⟩ (coordsOf cv cfg half) invalid d.row d.col left.img right
      left.rowDisp left.colDisp = .ok out := by
  have S := flow_setting hp hs h1 h2 h ho half it hh
  obtain ⟨⟨m1, m2⟩, -⟩ := maps_shape ho
  apply C50_total S hr hc
  · intro r hr c hc
    rw [m1] at hr
    rw [m2] at hc
    by_cases hn : NoCand cv r c
    · obtain ⟨x, y, -⟩ := (C03_invalid_iff_no_candidate invalid cv d ho r c ⟨hr, hc⟩).1 hn
      have tr : ∀ w : F K, w = invalid → Truncatable invalid w := by
        intro w hw
        cases hw' : w with
        | nan => exact .inl rfl
        | _ => right; left; rw [← hw', hw]; exact ⟨rfl, by rw [← hw, hw']; rfl⟩
      exact ⟨tr _ y, tr _ x⟩
    · obtain ⟨⟨i, -, ei⟩, ⟨j, -, ej⟩, -⟩ := (C03_invalid_iff_no_candidate invalid cv d ho r c ⟨hr, hc⟩).2 hn
      exact ⟨.inr (.inr ⟨_, ej⟩), .inr (.inr ⟨_, ei⟩)⟩
  · obtain ⟨q1, q2, q3, q4⟩ := hp.row.shape
    obtain ⟨q5, q6, q7, q8⟩ := hp.col.shape
    intro g hg
    show (g.h + cfg.stepRow - 1) / cfg.stepRow = cv.row.n ∧ (g.w + cfg.stepCol - 1) / cfg.stepCol = cv.col.n
    simp only [List.mem_cons, List.not_mem_nil, or_false] at hg
    rw [c1, c2]
    rcases hg with rfl | rfl | rfl | rfl
    · rw [q1, q2]; exact ⟨rfl, rfl⟩
    · rw [q3, q4]; exact ⟨rfl, rfl⟩
    · rw [q5, q6]; exact ⟨rfl, rfl⟩
    · rw [q7, q8]; exact ⟨rfl, rfl⟩

/-- C61 for the optical flow (partial: the first coordinate of the cost volumes is the first pixel of the image, which is always the
case without region of interest): the refinement runs without error for every step as soon as one window fits. -/
theorem C61_flow_partial (hp : PairOk left right) (hs : 0 < cfg.subpix) (h1 : 1 ≤ cfg.stepRow) (h2 : 1 ≤ cfg.stepCol)
    (h : computeCostVolumes z pc cfg roi left right mg = .ok cv) {d : DispOut K} (ho : computeDispMaps invalid cv = .ok d)
    (half it : Nat) (hh : 1 ≤ half)
    (a1 : cv.row.get 0 = left.img.row0) (a2 : cv.col.get 0 = left.img.col0)
    (hr : ∃ k, InnerIdx cv.row half k) (hc : ∃ k, InnerIdx cv.col half k) :
    ∃ out, refinementMethod e junk ⟨2 * half + 1, it⟩ (coordsOf cv cfg half) invalid d.row d.col left.img right
      left.rowDisp left.colDisp = .ok out := by
  obtain ⟨e1, e2, -⟩ := compute_char hp hs h1 h
  rw [rowCoords_eq] at e1
  rw [colCoords_eq] at e2
  have a1' : startCoord (rowMargin roi) left.img.row0 cfg.stepRow = left.img.row0 := by
    rw [e1] at a1
    simpa [arangeA] using a1
  have a2' : startCoord (colMargin roi) left.img.col0 cfg.stepCol = left.img.col0 := by
    rw [e2] at a2
    simpa [arangeA] using a2
  rw [a1'] at e1
  rw [a2'] at e2
  exact flow_runs hp hs h1 h2 h ho half it hh (by rw [e1, arange_count _ _ _ h1]) (by rw [e2, arange_count _ _ _ h2]) hr hc

/-- The grids have the shape of the maps when the refinement succeeds. -/
theorem flow_grid_shape {fc : OpticalFlow.Cfg} {cc : CostCoords} {rowMap colMap : Arr2 (F K)} {l r : Img K}
    {rowDisp colDisp : MinMax}
    (h : refinementMethod e junk fc cc invalid rowMap colMap l r rowDisp colDisp = .ok (oc, orr)) :
    (colDisp.lo.h + cc.stepRow - 1) / cc.stepRow = rowMap.h ∧ (colDisp.lo.w + cc.stepCol - 1) / cc.stepCol = rowMap.w := by
  unfold refinementMethod at h
  simp only [Bind.bind, Except.bind] at h
  split at h
  · simp at h
  split at h
  · simp at h
  split at h
  · simp at h
  split at h
  · simp at h
  split at h
  · simp at h
  split at h
  · simp at h
  rename_i pc hpc
  split at h
  · simp at h
  split at h
  · simp at h
  rename_i oc' hoc
  obtain ⟨p1, p2, -⟩ := padded_ok hpc
  obtain ⟨-, -, -, u1, u2⟩ := invalidOutOfGrid_ok hoc
  exact ⟨u1.trans p1, u2.trans p2⟩

/-- C61 is false for the optical flow with a region of interest: when skipping the first pixels changes the number of points of an
axis, the refinement raises whatever the images and the disparities. -/
theorem C61_flow_raises_with_roi (hp : PairOk left right) (hs : 0 < cfg.subpix) (h1 : 1 ≤ cfg.stepRow)
    (h : computeCostVolumes z pc cfg roi left right mg = .ok cv) {d : DispOut K} (ho : computeDispMaps invalid cv = .ok d)
    (half it : Nat)
    (hne : cv.row.n ≠ (left.img.h + cfg.stepRow - 1) / cfg.stepRow ∨
      cv.col.n ≠ (left.img.w + cfg.stepCol - 1) / cfg.stepCol) :
    ∃ x, refinementMethod e junk ⟨2 * half + 1, it⟩ (coordsOf cv cfg half) invalid d.row d.col left.img right
      left.rowDisp left.colDisp = .error x := by
  rcases hx : refinementMethod e junk ⟨2 * half + 1, it⟩ (coordsOf cv cfg half) invalid d.row d.col left.img right
      left.rowDisp left.colDisp with x | ⟨oc, orr⟩
  · exact ⟨x, rfl⟩
  · exfalso
    obtain ⟨g1, g2⟩ := flow_grid_shape hx
    obtain ⟨⟨m1, m2⟩, -⟩ := maps_shape ho
    obtain ⟨q5, q6, -, -⟩ := hp.col.shape
    rw [m1, q5] at g1
    rw [m2, q6] at g2
    rcases hne with hne | hne
    · exact hne g1.symm
    · exact hne g2.symm

/-- Non-vacuity of the previous theorem: the crop of 5 rows of a region of interest which begins at row 1, with a margin of one row
and a step of 2: the volumes have two rows instead of three. -/
example : (rowCoords (some ⟨1, 3, 1, 3, ⟨1, 1, 1, 1⟩⟩) 0 5 2).n = 2 ∧ (5 + 2 - 1) / 2 = 3 := by decide

/-- C52 on datasets: without region of interest the refined value of each map is NaN, invalid or strictly inside the range of its
pixel. -/
theorem C52_pipeline_partial (hp : PairOk left right) (hs : 0 < cfg.subpix) (h1 : 1 ≤ cfg.stepRow) (h2 : 1 ≤ cfg.stepCol)
    (h : computeCostVolumes z pc cfg none left right mg = .ok cv) {d : DispOut K} (ho : computeDispMaps invalid cv = .ok d)
    (half it : Nat) (hh : 1 ≤ half)
    (hx : refinementMethod e junk ⟨2 * half + 1, it⟩ (coordsOf cv cfg half) invalid d.row d.col left.img right
      left.rowDisp left.colDisp = .ok (oc, orr)) (r c : Nat) (hr : r < cv.row.n) (hc : c < cv.col.n) :
    let i := (cv.row.get r - left.img.row0).toNat
    let j := (cv.col.get c - left.img.col0).toNat
    (orr.get r c = .nan ∨ orr.get r c = invalid ∨
      StrictlyInside (left.rowDisp.lo.get i j) (left.rowDisp.hi.get i j) (orr.get r c)) ∧
    (oc.get r c = .nan ∨ oc.get r c = invalid ∨
      StrictlyInside (left.colDisp.lo.get i j) (left.colDisp.hi.get i j) (oc.get r c)) := by
  have S := flow_setting hp hs h1 h2 h ho half it hh
  obtain ⟨⟨m1, m2⟩, -⟩ := maps_shape ho
  exact C52_inside_partial S hx r c (by rw [m1]; exact hr) (by rw [m2]; exact hc)

/-- Datasets without region of interest. -/
example : (rowCoords none 7 10 3).get 0 = 7 ∧ (Pandora.colCoordinates (colMargin none) 7 10 3).get 0 = 7 := ⟨rfl, rfl⟩

end Verif.Props
