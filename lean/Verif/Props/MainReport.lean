import Verif.Props.MainExample
import Verif.Props.OpticalFlowPipeline
import Verif.Props.Statistics

/-!
# Property C80: the report of a whole execution
-/

set_option linter.unusedSectionVars false

namespace Verif.Props

open Verif Verif.Config Verif.Machine Verif.ImgTools Verif.MatchingCost Verif.Disparity Verif.Estimation Verif.Run Verif.Main Verif.Spec
  Verif.Save Verif.Statistics

variable {K : Type} [Field K] [LinearOrder K] [IsStrictOrderedRing K] [FloorRing K]

theorem cells_by_row {α : Type} (a : Arr2 α) :
    Statistics.cells a = (List.range a.h).flatMap fun i => (List.range a.w).map fun j => a.get i j := by
  unfold Statistics.cells
  obtain ⟨h, w, g⟩ := a
  simp only
  induction h with
  | zero => simp
  | succ h ih =>
    rw [List.range_succ, List.flatMap_append, ← ih, Nat.succ_mul, List.range_add, List.map_append]
    congr 1
    simp only [List.flatMap_cons, List.flatMap_nil, List.append_nil, List.map_map]
    apply List.map_congr_left
    intro k hk
    rw [List.mem_range] at hk
    have hw : 0 < w := by omega
    simp only [Function.comp_apply]
    rw [show h * w + k = k + w * h by ring, Nat.add_mul_div_left _ _ hw, Nat.add_mul_mod_self_left, Nat.div_eq_of_lt hk,
      Nat.mod_eq_of_lt hk, Nat.zero_add]

/-- The statistics of the pixels of a file describe it. -/
theorem describes_of_cells (sqrt : F K → F K) (f : File K (F K)) (invalid : F K) (a : Arr2 (F K)) (h : Statistics.cells a = filePixels f) :
    DescribesFile sqrt (computeStatistics sqrt (Statistics.cells a) (some invalid)) f invalid := by
  rw [h]
  refine ⟨fun xs hx hn => C55_mean hx hn, fun xs hx hn => ?_, fun xs hx hn => C55_quantiles hx hn⟩
  obtain ⟨m, v, h1, h2, -, h3⟩ := C55_std (sqrt := sqrt) hx hn
  exact ⟨m, v, h1, h2, h3⟩

/-- The refinements keep the size of the maps. -/
theorem refinedAll_shape {e : Run.Env K} {p : Plan K} {left : Left K} {right : Img K} {cv : CostVolumes K} {l : List (StepCfg K)}
    {m o : Spec.Maps K} (h : refinedAll e p left right cv l m = .ok o)
    (hm : (m.row.h = cv.row.n ∧ m.row.w = cv.col.n) ∧ m.col.h = cv.row.n ∧ m.col.w = cv.col.n) :
    (o.row.h = cv.row.n ∧ o.row.w = cv.col.n) ∧ o.col.h = cv.row.n ∧ o.col.w = cv.col.n := by
  induction l generalizing m with
  | nil =>
    simp only [refinedAll, Except.ok.injEq] at h
    subst h
    exact hm
  | cons c l ih =>
    simp only [refinedAll] at h
    obtain ⟨o', -, h⟩ := bind_eq_ok h
    split at h
    · rename_i hs
      exact ih h ⟨⟨hs.1, hs.2.1⟩, hs.2.2.1, hs.2.2.2.1⟩
    · simp at h

section
variable {w : World K} {user p0 : Fields} {out : List (Written K)}

theorem Stages.mapsShape (s : Stages w user p0 out) :
    (s.maps.rowMap.h = s.maps.row.n ∧ s.maps.rowMap.w = s.maps.col.n) ∧ s.maps.colMap.h = s.maps.row.n ∧ s.maps.colMap.w = s.maps.col.n ∧
      s.maps.invalid = s.plan.invalid := by
  have hrun := s.run
  unfold expectedMaps at hrun
  obtain ⟨L, -, hrun⟩ := bind_eq_ok hrun
  obtain ⟨cv, -, hrun⟩ := bind_eq_ok hrun
  obtain ⟨o, r3, hrun⟩ := bind_eq_ok hrun
  obtain ⟨m, r4, hrun⟩ := bind_eq_ok hrun
  simp only [pure, Except.pure, Except.ok.injEq] at hrun
  obtain ⟨a, b, c⟩ := refinedAll_shape r4 (maps_shape r3)
  rw [← hrun]
  exact ⟨a, b, c, rfl⟩

/-- Without ROI the rasters are the maps. -/
theorem Stages.fullPixels (s : Stages w user p0 out) (hroi : user.get "ROI" = none) :
    Statistics.cells s.maps.rowMap = filePixels s.files.row ∧ Statistics.cells s.maps.colMap = filePixels s.files.col := by
  obtain ⟨⟨a1, a2⟩, a3, a4, -⟩ := s.mapsShape
  have hr : s.roi = none := by
    have hf := s.roiFor
    cases hs : s.roi with
    | none => rfl
    | some R =>
      rw [hs] at hf
      obtain ⟨v, hv, -⟩ := hf
      rw [hroi] at hv
      simp at hv
  have hsave := s.saved
  rw [hr] at hsave
  rw [cells_by_row, cells_by_row, a1, a2, a3, a4]
  unfold saveDataset prepared at hsave
  simp only [bind, Except.bind, pure, Except.pure] at hsave
  split at hsave
  · simp at hsave
  · rename_i o ho
    split at ho <;>
    · simp only [Except.ok.injEq] at ho
      subst ho
      simp only [Except.ok.injEq, Prod.mk.injEq] at hsave
      rw [← hsave.1]
      exact ⟨rfl, rfl⟩

/-- C80 (partial): for every successful execution with a disparity step and without ROI, any steps before and after, the report describes the
rasters which are written just before it: its means, deviations and quantiles are those of their valid pixels for the invalid value of the
user. With a ROI it is false (`C80_false_with_roi`). -/
theorem C80_report_describes_files_partial (w : World K) (user p0 disp : Fields) (out : List (Written K)) (invalid : F K) (hw : user.wf)
    (hpan : PandoraContract w) (hu : user.get "pipeline" = some (.obj p0)) (hd : p0.get "disparity" = some (.obj disp))
    (hi : InvalidIs disp invalid) (hroi : user.get "ROI" = none) (h : Main.main w user = (out, none)) :
    ∃ files row col rest, out = .rasters files :: .report row col :: rest ∧ DescribesFile w.sqrt row files.row invalid ∧
      DescribesFile w.sqrt col files.col invalid := by
  obtain ⟨s⟩ := main_stages w user p0 out hw hpan hu ((Fields.get_isSome p0 _).1 (by rw [hd]; rfl)) h
  have a5 := s.mapsShape.2.2.2
  obtain ⟨disp', n1, n2⟩ := s.reads.disparity
  rw [hd, Option.some.injEq, J.obj.injEq] at n1
  subst n1
  obtain rfl := InvalidIs.unique hi n2
  have hf := s.fullPixels hroi
  refine ⟨s.files, _, _, _, s.outIs, ?_, ?_⟩
  · unfold reportDisparities
    rw [a5]
    exact describes_of_cells _ _ _ _ hf.1
  · unfold reportDisparities
    rw [a5]
    exact describes_of_cells _ _ _ _ hf.2

end

/-- The report. -/
def reportOf (l : List (Written ℚ)) : Option (Stats ℚ × Stats ℚ) :=
  match l with
  | _ :: .report r c :: _ => some (r, c)
  | _ => none

/-- C80 is false with a ROI: in this execution the four pixels of the raster of the row disparities are 1 and the reported mean is 3/4, because
the report is computed on the maps with the margins of the ROI. -/
theorem C80_false_with_roi : ∃ (w : World ℚ) (user p0 disp : Fields) (out : List (Written ℚ)) (invalid : F ℚ) (files : Save.Files ℚ (F ℚ))
    (row col : Stats ℚ) (rest : List (Written ℚ)), user.wf ∧ PandoraContract w ∧ user.get "pipeline" = some (.obj p0) ∧
      p0.get "disparity" = some (.obj disp) ∧ InvalidIs disp invalid ∧ Main.main w user = (out, none) ∧
      out = .rasters files :: .report row col :: rest ∧ ¬ DescribesFile w.sqrt row files.row invalid := by
  obtain ⟨s⟩ := main_stages exWorld exUser _ _ exUser_wf exWorld_pandora rfl (by decide) exUser_ok
  have hout := s.outIs
  refine ⟨exWorld, exUser, _, _, _, .nan, s.files, _, _, _, exUser_wf, exWorld_pandora, rfl, rfl,
    .inl ⟨_, rfl, .inr (.inr (.inl ⟨rfl, rfl⟩))⟩, exUser_ok, hout, fun hdesc => ?_⟩
  have h1 : (rastersOf (Main.main exWorld exUser).1).map (fun f => filePixels f.row) = some [.fin 1, .fin 1, .fin 1, .fin 1] := by
    decide +kernel
  have h2 : (reportOf (Main.main exWorld exUser).1).map (fun x => x.1.mean) = some (.fin (3 / 4)) := by decide +kernel
  rw [hout] at h1 h2
  simp only [rastersOf, reportOf, Option.map_some, Option.some.injEq] at h1 h2
  obtain ⟨m, e1, e2⟩ := hdesc.mean [1, 1, 1, 1] (by
    unfold ValidValues
    rw [h1]
    simp [ValidFor]) (by simp)
  rw [h2, F.fin.injEq] at e1
  subst e1
  unfold IsMean at e2
  norm_num at e2

/-- The hypotheses of the partial theorem hold for the configuration with an estimation, which has no ROI; the reported mean is 4/5. -/
example : (∃ files row col rest, (Main.main exWorld exUserEstimation).1 = .rasters files :: .report row col :: rest ∧
      DescribesFile exWorld.sqrt row files.row (.fin (-9999)) ∧ DescribesFile exWorld.sqrt col files.col (.fin (-9999))) ∧
    (reportOf (Main.main exWorld exUserEstimation).1).map (fun x => x.1.mean) = some (.fin (4 / 5)) := by
  have h : (Main.main exWorld exUserEstimation).2 = none := by decide +kernel
  exact ⟨C80_report_describes_files_partial exWorld exUserEstimation _ _ _ _
    (by simp [exUserEstimation, dict, Fields.wf, J.wf, Fields.keys]) exWorld_pandora rfl rfl (.inr ⟨rfl, rfl⟩) rfl (by rw [← h]),
    by decide +kernel⟩

end Verif.Props
