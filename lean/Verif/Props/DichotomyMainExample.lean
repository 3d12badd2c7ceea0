import Verif.Props.SectionValues
import Verif.Props.DichotomyMain
import Verif.Props.AcceptedExample

/-!
# The hypotheses of C82 are met by a run which refines a disparity
-/

namespace Verif.Props

open Verif Verif.Config Verif.Machine Verif.ImgTools Verif.MatchingCost Verif.Disparity Verif.Estimation Verif.Run Verif.Main Verif.Spec
  Verif.Save Verif.Statistics

/-- An inclined plane of seven rows and columns, and the same half a pixel to the right. -/
def exPlane (shift : ℚ) : Img ℚ := ⟨7, 7, 0, 0, fun r c => .fin (3 * r + c - shift), none, .fin (-1), 0, 1⟩

/-- A world with these images. -/
def exWorldD : World ℚ :=
  { exWorldI with
    env := ⟨false, fun v => isStr v || decide (v = .null), isStr, fun _ => .ok ⟨1, 7, 7, some 1⟩, fun _ => none, fun _ => .ok (7, 7)⟩
    files := ⟨fun v roi =>
      let img := if isLeftSection v then exPlane 0 else exPlane (1 / 2)
      match roi with
      | none => .ok img
      | some R => .ok (cropImg img R), fun _ => ⟨7, 7, fun _ _ => 0⟩⟩ }

theorem exWorldD_disk : DiskContract exWorldD 7 7 := by
  refine ⟨by decide, ?_, ?_, ?_, ?_⟩
  · intro s g h
    simp only [exWorldD, Except.ok.injEq] at h
    subst h
    exact ⟨rfl, rfl⟩
  · intro v s h
    simp only [exWorldD, Except.ok.injEq] at h
    exact h.symm
  · intro v img h
    simp only [exWorldD, Except.ok.injEq] at h
    subst h
    split_ifs <;> exact ⟨rfl, rfl, rfl, rfl⟩
  · intro v R img h h1 h2 h3
    simp only [exWorldD, Except.ok.injEq] at h
    subst h
    have key : ∀ i : Img ℚ, i.h = 7 → i.w = 7 → CropOk (cropImg i R) R 7 7 := by
      intro i hi hi'
      refine ⟨h1, h2, h3, rfl, rfl, ?_, ?_⟩
      · simp only [cropImg, hi]; push_cast at *; omega
      · simp only [cropImg, hi']; push_cast at *; omega
    split_ifs
    · exact key _ rfl rfl
    · exact key _ rfl rfl

/-- A configuration with a dichotomy, without ROI. -/
def exUserD : Fields := exUserWhole 1 1 (some exDicho) (some (.int 0))

theorem exUserD_wf : exUserD.wf := by
  simp [exUserD, exUserWhole, exInput, exPipeline, exDicho, dict, Fields.append, Fields.wf, J.wf, Fields.keys]

theorem exUserD_ok : Main.main exWorldD exUserD = ((Main.main exWorldD exUserD).1, none) := by
  have : (Main.main exWorldD exUserD).2 = none := by decide +kernel
  rw [← this]

theorem exUserD_asks : Asks exWorldD exUserD 7 7 ⟨.const 0, 1⟩ ⟨.const 0, 1⟩ 0 6 0 6 1 1 .nan :=
  ⟨⟨_, rfl, ⟨_, _, _, rfl, rfl, rfl, .inl rfl, .inl ⟨_, .inl rfl, rfl⟩⟩, ⟨_, _, _, rfl, rfl, rfl, .inl rfl, .inl ⟨_, .inl rfl, rfl⟩⟩⟩,
    .inr ⟨rfl, rfl, rfl, rfl, rfl⟩,
    ⟨_, _, _, rfl, rfl, rfl, .inl ⟨_, _, rfl, .inl rfl, .inl rfl⟩, .inl ⟨_, rfl, .inr (.inr (.inl ⟨rfl, rfl⟩))⟩⟩⟩

theorem exUserD_transform : LeftTransform exWorldD exUserD (some ⟨1, 0, 100, 0, -1, 200⟩) :=
  ⟨_, _, _, rfl, rfl, rfl, fun g hg => by
    have : isLeftSection (.obj g) = true := by
      simp only [isLeftSection, hg]
      decide
    simp [exWorldD, exWorldOf, exWorld, this]⟩

/-- The hypotheses of C82 hold for this configuration, and the column disparity of the pixel at row 3 and column 3 is refined to a half. -/
example : (∃ files rest, (Main.main exWorldD exUserD).1 = .rasters files :: rest ∧
      (∀ f ∈ [files.row, files.col, files.score], ZoneFile f (some ⟨1, 0, 100, 0, -1, 200⟩) 0 6 0 6 1 1) ∧
      ∀ i < files.row.h, ∀ j < files.row.w,
        RefinedInOwnRange files .nan ⟨.const 0, 1⟩ ⟨.const 0, 1⟩ (2 ^ max 0 1) i j (0 + i) (0 + j)) ∧
    ((rastersOf (Main.main exWorldD exUserD).1).map fun f => (f.row.values 3 3, f.col.values 3 3, f.score.values 3 3)) =
      some (.fin 0, .fin (1 / 2), .fin (3 / 8)) := by
  refine ⟨?_, by decide +kernel⟩
  obtain ⟨-, -, h⟩ := C82_refined_files exWorldD exUserD _ _ _ _ 7 7 _ _ 0 6 0 6 1 1 .nan _ 0 1 exUserD_wf exWorldD_disk
    ⟨exWorldI_contract.pandora.subpix, exWorldI_contract.pandora.cost⟩ ⟨exWorldI_contract.keeps.numbers, exWorldI_contract.keeps.again⟩
    rfl rfl rfl ⟨_, _, _, _, _, _, rfl, rfl, rfl, .inl rfl⟩ rfl rfl ⟨_, 1, rfl, .inl rfl, rfl⟩ exUserD_asks (by decide)
    exUserD_transform exUserD_ok
  exact h

/-- The hypotheses of `C37_pipeline_sections` hold for this configuration; the disparity section and the filter of the dichotomy in
the configuration returned. -/
example : exUserD.wf ∧ (∃ p0, exUserD.get "pipeline" = some (.obj p0)) ∧
    ((Config.checkConf exWorldD.env exWorldD.steps exUserD (fresh .init)).2.toOption.map fun c =>
      ((J.obj c).at ["pipeline", "disparity", "invalid_disparity"], (J.obj c).at ["pipeline", "refinement", "filter", "method"],
        (J.obj c).at ["pipeline", "matching_cost", "step"])) =
      some (some (.float .nan), some (.str "bicubic"), some (.arr (.cons (.int 1) (.cons (.int 1) .nil)))) :=
  ⟨exUserD_wf, ⟨_, rfl⟩, by decide +kernel⟩

end Verif.Props
