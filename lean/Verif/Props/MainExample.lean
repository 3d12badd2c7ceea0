import Verif.Props.Main
import Verif.Props.Written

/-!
# A concrete world for C77 to C80
-/

namespace Verif.Props

open Verif Verif.Config Verif.Machine Verif.ImgTools Verif.MatchingCost Verif.Disparity Verif.Estimation Verif.Run Verif.Main Verif.Spec
  Verif.Save Verif.Statistics

/-- The zone of an image with margins, limited by the image. -/
def cropImg (img : Img ℚ) (R : Roi) : Img ℚ :=
  let r0 := max 0 (R.rowFirst - R.margins.up)
  let c0 := max 0 (R.colFirst - R.margins.left)
  { img with
    h := (min (img.h : Int) (R.rowLast + R.margins.down + 1) - r0).toNat
    w := (min (img.w : Int) (R.colLast + R.margins.right + 1) - c0).toNat
    row0 := r0
    col0 := c0
    im := fun r c => img.im (r + r0.toNat) (c + c0.toNat) }

/-- The section of the left image. -/
def isLeftSection (v : J) : Bool :=
  match v with
  | .obj f => decide (f.get "img" = some (.str "left.tif"))
  | _ => false

/-- The pair of 5 rows and 3 columns, the right image being the left one moved by one row. -/
def exWorld : World ℚ where
  env := ⟨false, fun v => isStr v || decide (v = .null), isStr, fun _ => .ok ⟨1, 5, 3, some 1⟩, fun _ => none, fun _ => .ok (5, 3)⟩
  pandora := fun _ => .ok (.int 1, .int 1, .int 1, ⟨0, 0, 0, 0⟩)
  offset := fun _ => 0
  cost := fun _ => exCost
  measure := fun _ => .min
  sinc := fun _ _ => Filters.bicubic
  globalMargins := fun _ _ => ⟨0, 0, 0, 0⟩
  marginsDict := fun _ _ => .null
  files := ⟨fun v roi =>
    let img := if isLeftSection v then exLeftImg else exRightImg
    match roi with
    | none => .ok img
    | some R => .ok (cropImg img R), fun _ => ⟨5, 3, fun r _ => if r < 3 then 1 else 0⟩⟩
  crs := fun _ => some "EPSG:32631"
  transform := fun v => if isLeftSection v then some ⟨1, 0, 100, 0, -1, 200⟩ else none
  check := fun _ => none
  run := exEnv
  extra := fun _ _ _ => (.int 0, .int 0)
  sqrt := id

theorem exWorld_disk : DiskContract exWorld 5 3 := by
  refine ⟨by decide, ?_, ?_, ?_, ?_⟩
  · intro s g h
    simp only [exWorld, Except.ok.injEq] at h
    subst h
    exact ⟨rfl, rfl⟩
  · intro v s h
    simp only [exWorld, Except.ok.injEq] at h
    exact h.symm
  · intro v img h
    simp only [exWorld, Except.ok.injEq] at h
    subst h
    split_ifs <;> exact ⟨rfl, rfl, rfl, rfl⟩
  · intro v R img h h1 h2 h3
    simp only [exWorld, Except.ok.injEq] at h
    subst h
    have key : ∀ i : Img ℚ, i.h = 5 → i.w = 3 → CropOk (cropImg i R) R 5 3 := by
      intro i hi hi'
      refine ⟨h1, h2, h3, rfl, rfl, ?_, ?_⟩
      · simp only [cropImg, hi]; push_cast at *; omega
      · simp only [cropImg, hi']; push_cast at *; omega
    split_ifs
    · exact key _ rfl rfl
    · exact key _ rfl rfl

theorem exWorld_pandora : PandoraContract exWorld := by
  refine ⟨?_, fun _ => exCost_contract⟩
  intro f a s b m h
  simp only [exWorld, Except.ok.injEq, Prod.mk.injEq] at h
  obtain ⟨-, rfl, -, -⟩ := h
  exact ⟨1, Or.inl rfl, le_refl _⟩

/-- A dictionary. -/
def dict : List (String × J) → Fields
  | [] => .nil
  | (k, v) :: l => .cons k v (dict l)

/-- A configuration: the ROI is the rows 1 to 2 and all the columns, one column out of two is processed. -/
def exUser : Fields := dict [
  ("input", .obj (dict [
    ("left", .obj (dict [("img", .str "left.tif")])),
    ("right", .obj (dict [("img", .str "right.tif"), ("nodata", .str "NaN")])),
    ("row_disparity", .obj (dict [("init", .int 1), ("range", .int 1)])),
    ("col_disparity", .obj (dict [("init", .int 0), ("range", .int 1)]))])),
  ("ROI", .obj (dict [("row", .obj (dict [("first", .int 1), ("last", .int 2)])), ("col", .obj (dict [("first", .int 0), ("last", .int 2)]))])),
  ("pipeline", .obj (dict [
    ("matching_cost", .obj (dict [("matching_cost_method", .str "zncc"), ("window_size", .int 1), ("step", .arr (.cons (.int 1) (.cons (.int 2) .nil)))])),
    ("disparity", .obj (dict [("disparity_method", .str "wta"), ("invalid_disparity", .str "NaN")]))])),
  ("expert_mode", .obj (dict [("profiling", .obj (dict [("folder_name", .str "prof")]))]))]

/-- The three rasters which are written. -/
def rastersOf (l : List (Written ℚ)) : Option (Save.Files ℚ (F ℚ)) :=
  match l with
  | .rasters f :: _ => some f
  | _ => none

theorem exUser_wf : exUser.wf := by simp [exUser, dict, Fields.wf, J.wf, Fields.keys]

theorem exUser_ok : Main.main exWorld exUser = ((Main.main exWorld exUser).1, none) := by
  have : (Main.main exWorld exUser).2 = none := by decide +kernel
  rw [← this]

theorem exUser_asks : Asks exWorld exUser 5 3 ⟨.const 1, 1⟩ ⟨.const 0, 1⟩ 1 2 0 2 1 2 .nan :=
  ⟨⟨_, rfl, ⟨_, _, _, rfl, rfl, rfl, .inl rfl, .inl ⟨_, .inl rfl, rfl⟩⟩, ⟨_, _, _, rfl, rfl, rfl, .inl rfl, .inl ⟨_, .inl rfl, rfl⟩⟩⟩,
    .inl ⟨_, rfl, _, _, _, _, _, _, _, rfl, rfl, rfl, rfl, rfl, rfl, rfl, .inl rfl, .inl rfl, .inl rfl, .inl rfl⟩,
    ⟨_, _, _, rfl, rfl, rfl, .inl ⟨_, _, rfl, .inl rfl, .inl rfl⟩, .inl ⟨_, rfl, .inr (.inr (.inl ⟨rfl, rfl⟩))⟩⟩⟩

theorem exUser_transform : LeftTransform exWorld exUser (some ⟨1, 0, 100, 0, -1, 200⟩) :=
  ⟨_, _, _, rfl, rfl, rfl, fun g hg => by
    have : isLeftSection (.obj g) = true := by
      simp only [isLeftSection, hg]
      decide
    simp [exWorld, this]⟩

/-- The hypotheses of C78 hold for this configuration, and a pixel of the files is not invalid. -/
example : (∃ files rest, (Main.main exWorld exUser).1 = .rasters files :: rest ∧
      (∀ f ∈ [files.row, files.col, files.score], ZoneFile f (some ⟨1, 0, 100, 0, -1, 200⟩) 1 2 0 2 1 2) ∧
      ∀ i < files.row.h, ∀ j < files.row.w,
        InOwnRange files .nan ⟨.const 1, 1⟩ ⟨.const 0, 1⟩ i j (1 + (i : Int) * (1 : Nat)) (0 + (j : Int) * (2 : Nat))) ∧
    (rastersOf (Main.main exWorld exUser).1).map (fun f => (f.row.h, f.row.w, f.row.values 1 1, f.col.values 1 1, f.score.values 1 1)) =
      some (2, 2, .fin 1, .fin 0, .fin 0) :=
  ⟨C78_files_answer_user exWorld exUser _ _ 5 3 _ _ 1 2 0 2 1 2 .nan _ exUser_wf exWorld_disk exWorld_pandora rfl rfl rfl exUser_asks
    (by decide) exUser_transform exUser_ok, by decide +kernel⟩

/-- The hypotheses of C77 hold for this configuration, which asks for a summary. -/
example : (Main.main exWorld exUser).1.map kindOf = [.rasters, .report, .config, .summary] := by decide +kernel

/-- The same configuration with an estimation of the disparities. -/
def exUserEstimation : Fields := dict [
  ("input", .obj (dict [("left", .obj (dict [("img", .str "left.tif")])), ("right", .obj (dict [("img", .str "right.tif")]))])),
  ("pipeline", .obj (dict [
    ("estimation", .obj (dict [("estimation_method", .str "phase_cross_correlation"), ("range_row", .int 3)])),
    ("matching_cost", .obj (dict [("matching_cost_method", .str "zncc"), ("window_size", .int 1)])),
    ("disparity", .obj (dict [("disparity_method", .str "wta")]))]))]

/-- The saved configuration. -/
def savedOf (l : List (Written ℚ)) : Option Fields :=
  match l with
  | _ :: _ :: .config c :: _ => some c
  | _ => none

/-- The hypotheses of C79 hold for this configuration; in the saved configuration the row disparities are 1 more or less 3, the column
disparities 0 more or less 5 (the default range). -/
example : exUserEstimation.wf ∧ "disparity" ∈ (dict [("estimation", .null), ("matching_cost", .null), ("disparity", .null)]).keys ∧
    ZoneIs exUserEstimation 5 3 0 4 0 2 ∧ (Main.main exWorld exUserEstimation).2 = none ∧
    (savedOf (Main.main exWorld exUserEstimation).1).bind (fun c => (J.obj c).at ["input", "row_disparity"]) =
      some (.obj (dict [("init", .int 1), ("range", .int 3)])) ∧
    (savedOf (Main.main exWorld exUserEstimation).1).bind (fun c => (J.obj c).at ["input", "col_disparity"]) =
      some (.obj (dict [("init", .int 0), ("range", .int 5)])) := by
  refine ⟨by simp [exUserEstimation, dict, Fields.wf, J.wf, Fields.keys], by decide, .inr ⟨rfl, rfl, rfl, rfl, rfl⟩, ?_, ?_, ?_⟩ <;>
    decide +kernel

end Verif.Props
