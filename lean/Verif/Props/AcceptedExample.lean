import Verif.Props.Accepted
import Verif.Props.MainExample
import Verif.Props.InterpolationCases

/-!
# C81: examples and counterexamples
-/

namespace Verif.Props

open Verif Verif.Config Verif.Machine Verif.ImgTools Verif.MatchingCost Verif.Disparity Verif.Estimation Verif.Run Verif.Main Verif.Spec
  Verif.Save Verif.Statistics

/-- The world of the examples with an interpolation, images of `rows` rows and three columns, and windows of `2 * half + 1`. -/
def exWorldOf (half : Nat) (rows : Nat := 5) : World ℚ :=
  { exWorld with
    env := ⟨false, fun v => isStr v || decide (v = .null), isStr, fun _ => .ok ⟨1, rows, 3, some 1⟩, fun _ => none, fun _ => .ok (rows, 3)⟩
    pandora := fun _ => .ok (.int (2 * half + 1 : Nat), .int 1, .int 1, ⟨half, half, half, half⟩)
    offset := fun v =>
      match v with
      | .obj f => ((pyInt ((f.get "window_size").getD .null) - 1) / 2).toNat
      | _ => 0
    files := ⟨fun v roi =>
      let img := { (if isLeftSection v then exLeftImg else exRightImg) with h := rows }
      match roi with
      | none => .ok img
      | some R => .ok (cropImg img R), fun _ => ⟨rows, 3, fun r _ => if r < 3 then 1 else 0⟩⟩
    run := { exEnv with interp := exI } }

theorem exWorldOf_contract (half rows : Nat) (hr : 1 ≤ rows) : RunContract (exWorldOf half rows) rows 3 := by
  refine ⟨⟨⟨hr, by decide⟩, ?_, ?_, ?_, ?_⟩, ⟨?_, exWorld_pandora.2⟩, ⟨?_, ?_⟩, ?_, fun _ _ _ _ => rfl, ?_, exI_interp, ?_⟩
  · intro s g h
    simp only [exWorldOf, Except.ok.injEq] at h
    subst h
    exact ⟨rfl, rfl⟩
  · intro v s h
    simp only [exWorldOf, Except.ok.injEq] at h
    exact h.symm
  · intro v img h
    simp only [exWorldOf, Except.ok.injEq] at h
    subst h
    split_ifs <;> exact ⟨rfl, rfl, rfl, rfl⟩
  · intro v R img h h1 h2 h3
    simp only [exWorldOf, Except.ok.injEq] at h
    subst h
    have key : ∀ i : Img ℚ, i.h = rows → i.w = 3 → CropOk (cropImg i R) R rows 3 := by
      intro i hi hi'
      refine ⟨h1, h2, h3, rfl, rfl, ?_, ?_⟩
      · simp only [cropImg, hi]; push_cast at *; omega
      · simp only [cropImg, hi']; push_cast at *; omega
    split_ifs
    · exact key _ rfl rfl
    · exact key _ rfl rfl
  · intro f a s b m h
    simp only [exWorldOf, Except.ok.injEq, Prod.mk.injEq] at h
    obtain ⟨-, rfl, -, -⟩ := h
    exact ⟨1, Or.inl rfl, le_refl _⟩
  · intro f a s b m h
    simp only [exWorldOf, Except.ok.injEq, Prod.mk.injEq] at h
    obtain ⟨rfl, rfl, rfl, -⟩ := h
    exact ⟨⟨_, .inl rfl⟩, ⟨0, .inl rfl⟩, ⟨1, .inl rfl⟩⟩
  · intro f g a s b m h _ _ _ _
    exact h
  · intro inp l r _ _ _ roi _
    cases roi with
    | none => exact ⟨_, _, rfl, rfl⟩
    | some R => exact ⟨_, _, rfl, rfl⟩
  · intro g v n hg hv
    simp only [exWorldOf, hg, Option.getD_some, pyInt_of hv]
  · intro n it h1 _ _
    refine ⟨bicubic_has_coeffs it, ?_⟩
    simp only [FitsMargins, exWorldOf, exWorld, Filters.bicubic, Dichotomy.sincMargins]
    omega

/-- Windows of one pixel. -/
abbrev exWorldI : World ℚ := exWorldOf 0

theorem exWorldI_contract : RunContract exWorldI 5 3 := exWorldOf_contract 0 5 (by decide)

/-- The cardinal sine filter itself meets what is assumed of the filters. -/
theorem C81_cardinal_sine_meets : ∀ n it, 6 ≤ n → n ≤ 21 → it ≤ 9 → HasCoeffs (Filters.cardinalSine n (2 ^ it)) it ∧
    FitsMargins (Filters.cardinalSine n (2 ^ it)).left (Filters.cardinalSine n (2 ^ it)).up (Filters.cardinalSine n (2 ^ it)).size
      (Dichotomy.sincMargins n) :=
  fun n it _ _ h => ⟨sinc_has_coeffs n it h, C46_sinc_fits n (2 ^ it)⟩

/-- The input of the examples, with initial disparities or not. -/
def exInput (init : Option J) : J :=
  .obj ((dict [("left", .obj (dict [("img", .str "left.tif")])),
    ("right", .obj (dict [("img", .str "right.tif"), ("nodata", .str "NaN")]))]).append
    (match init with
    | some i => dict [("row_disparity", .obj (dict [("init", i), ("range", .int 1)])),
      ("col_disparity", .obj (dict [("init", i), ("range", .int 1)]))]
    | none => .nil))

/-- A pipeline of the examples. -/
def exPipeline (estimation : Option J) (sr sc : Int) (refinement : Option J) : Fields :=
  (match estimation with
    | some e => dict [("estimation", e)]
    | none => .nil).append ((dict [
    ("matching_cost", .obj (dict [("matching_cost_method", .str "zncc"), ("window_size", .int 1),
      ("step", .arr (.cons (.int sr) (.cons (.int sc) .nil)))])),
    ("disparity", .obj (dict [("disparity_method", .str "wta"), ("invalid_disparity", .str "NaN")]))]).append
    (match refinement with
    | some r => dict [("refinement", r)]
    | none => .nil))

/-- An optical flow. -/
def exFlow : J := .obj (dict [("refinement_method", .str "optical_flow"), ("iterations", .int 1)])

/-- A configuration of the examples without ROI. -/
def exUserWhole (sr sc : Int) (refinement : Option J) (init : Option J) : Fields := dict [
  ("input", exInput init),
  ("pipeline", .obj (exPipeline none sr sc refinement))]

/-- A configuration of the examples: the ROI is the rows 1 to 2 and all the columns. -/
def exUserWith (estimation : Option J) (sr sc : Int) (refinement : Option J) (init : Option J) : Fields := dict [
  ("input", exInput init),
  ("ROI", .obj (dict [("row", .obj (dict [("first", .int 1), ("last", .int 2)])), ("col", .obj (dict [("first", .int 0), ("last", .int 2)]))])),
  ("pipeline", .obj (exPipeline estimation sr sc refinement))]

def exDicho : J :=
  .obj (dict [("refinement_method", .str "dichotomy"), ("iterations", .int 1), ("filter", .obj (dict [("method", .str "bicubic")]))])

def exInterp : J := .obj (dict [("refinement_method", .str "interpolation")])

def exEst : J := .obj (dict [("estimation_method", .str "phase_cross_correlation"), ("range_row", .int 3)])

/-- Whether the configuration is accepted. -/
def accepted (w : World ℚ) (user : Fields) : Bool :=
  match (Config.checkConf w.env w.steps user (fresh .init)).2 with
  | .ok _ => true
  | .error _ => false

theorem accepted_ok {w : World ℚ} {user : Fields} (h : accepted w user = true) :
    ∃ m cfg, Config.checkConf w.env w.steps user (fresh .init) = (m, .ok cfg) := by
  unfold accepted at h
  split at h
  · rename_i cfg hc
    exact ⟨_, cfg, Prod.ext rfl hc⟩
  · simp at h

theorem exZone (e : Option J) (sr sc : Int) (r i : Option J) : ZoneIs (exUserWith e sr sc r i) 5 3 1 2 0 2 :=
  .inl ⟨_, rfl, _, _, _, _, _, _, _, rfl, rfl, rfl, rfl, rfl, rfl, rfl, .inl rfl, .inl rfl, .inl rfl, .inl rfl⟩

/-- The hypotheses of C81 hold for a dichotomy with steps of one and grids of disparities. -/
theorem exRoi_runs : (Main.main exWorldI (exUserWith none 1 1 (some exDicho) (some (.str "grid.tif")))).2 = none := by
  obtain ⟨m, cfg, h⟩ := accepted_ok (w := exWorldI) (user := exUserWith none 1 1 (some exDicho) (some (.str "grid.tif"))) (by decide +kernel)
  refine C81_accepted_runs_partial exWorldI _ _ _ cfg m 5 3 1 2 0 2 1 1 ?_ exWorldI_contract rfl (by decide) rfl
    (.inl ⟨_, _, rfl, .inl rfl, .inl rfl⟩) (exZone _ _ _ _ _) (by decide) ?_ ?_ (.inl ⟨rfl, rfl⟩) h
  · simp [exUserWith, exInput, exPipeline, exDicho, dict, Fields.append, Fields.wf, J.wf, Fields.keys]
  · intro he
    exact absurd rfl he
  · intro v hv
    have : v = exDicho := (Option.some.inj hv).symm
    subst this
    exact ⟨_, rfl, .inr (.inl ⟨rfl, rfl, rfl⟩)⟩

/-- They hold for an estimation and an interpolation with steps of two rows and one column. -/
theorem exEst_runs : (Main.main exWorldI (exUserWith (some exEst) 2 1 (some exInterp) none)).2 = none := by
  obtain ⟨m, cfg, h⟩ := accepted_ok (w := exWorldI) (user := exUserWith (some exEst) 2 1 (some exInterp) none) (by decide +kernel)
  refine C81_accepted_runs_partial exWorldI _ _ _ cfg m 5 3 1 2 0 2 2 1 ?_ exWorldI_contract rfl (by decide) rfl
    (.inl ⟨_, _, rfl, .inl rfl, .inl rfl⟩) (exZone _ _ _ _ _) (by decide) ?_ ?_ (.inr (.inl (by decide))) h
  · simp [exUserWith, exInput, exPipeline, exInterp, exEst, dict, Fields.append, Fields.wf, J.wf, Fields.keys]
  · intro _
    exact ⟨fun _ _ _ => ⟨_, _, rfl⟩, .inr ⟨_, rfl, .inl ⟨.inl rfl, .inl rfl⟩⟩⟩
  · intro v hv
    have : v = exInterp := (Option.some.inj hv).symm
    subst this
    exact ⟨_, rfl, .inl rfl⟩

/-- They hold for an optical flow with a window of three pixels and a step of two rows, without ROI. -/
theorem exFlow_runs : (Main.main (exWorldOf 1) (exUserWhole 2 1 (some exFlow) (some (.int 0)))).2 = none := by
  obtain ⟨m, cfg, h⟩ := accepted_ok (w := exWorldOf 1) (user := exUserWhole 2 1 (some exFlow) (some (.int 0))) (by decide +kernel)
  refine C81_accepted_runs_partial (exWorldOf 1) _ _ _ cfg m 5 3 0 4 0 2 2 1 ?_ (exWorldOf_contract 1 5 (by decide)) rfl (by decide) rfl
    (.inl ⟨_, _, rfl, .inl rfl, .inl rfl⟩) (.inr ⟨rfl, rfl, rfl, rfl, rfl⟩) (by decide) ?_ ?_ (.inr (.inr ?_)) h
  · simp [exUserWhole, exInput, exPipeline, exFlow, dict, Fields.append, Fields.wf, J.wf, Fields.keys]
  · intro he
    exact absurd rfl he
  · intro v hv
    have : v = exFlow := (Option.some.inj hv).symm
    subst this
    refine ⟨_, rfl, .inr (.inr ⟨rfl, .inl rfl, ?_⟩)⟩
    intro c st wn mar half hc hi
    have hw : wn = .int 3 := by
      have := congrArg (fun x => match x with | .ok (_, _, w, _) => w | .error _ => J.null) hc
      exact this.symm
    subst hw
    have : half = 1 := by
      rcases hi with hi | ⟨-, ⟨hi, -⟩ | ⟨hi, -⟩⟩
      · simp only [J.int.injEq] at hi; omega
      · simp at hi
      · simp at hi
    subst this
    exact ⟨⟨1, 2, by decide⟩, ⟨1, 2, by decide⟩⟩
  · exact ⟨_, _, _, _, _, _, _, rfl, rfl, rfl, rfl, rfl, .inl rfl, .inl rfl⟩

/-- The full statement of C81: every accepted configuration with a disparity step and integer steps runs to the end. -/
def C81Statement : Prop :=
  ∀ (w : World ℚ) (user p0 mc cfg : Fields) (m : Mach (Machine.Attrs J Margins)) (H W : Nat) (rf rl cf cl : Int) (sr sc : Nat),
    user.wf → RunContract w H W → user.get "pipeline" = some (.obj p0) → "disparity" ∈ p0.keys →
    p0.get "matching_cost" = some (.obj mc) → StepIs mc sr sc → ZoneIs user H W rf rl cf cl → rf < rl ∧ rl < H ∧ cf < cl ∧ cl < W →
    (∀ l r s, ∃ x y, w.run.correlation l r s = (.fin x, .fin y)) →
    Config.checkConf w.env w.steps user (fresh .init) = (m, .ok cfg) → (Main.main w user).2 = none

theorem C81_false_of (half rows : Nat) (user p0 : Fields) (rf rl cf cl : Int) (sr sc : Nat) (hw : user.wf)
    (hu : user.get "pipeline" = some (.obj p0)) (hd : "disparity" ∈ p0.keys)
    (hm : ∃ mc, p0.get "matching_cost" = some (.obj mc) ∧ StepIs mc sr sc) (hz : ZoneIs user rows 3 rf rl cf cl)
    (hne : 1 ≤ rows ∧ rf < rl ∧ rl < rows ∧ cf < cl ∧ cl < (3 : Nat))
    (ha : accepted (exWorldOf half rows) user = true) (hx : (Main.main (exWorldOf half rows) user).2 ≠ none) : ¬ C81Statement := by
  intro h
  obtain ⟨m, cfg, hc⟩ := accepted_ok ha
  obtain ⟨mc, h1, h2⟩ := hm
  exact hx (h (exWorldOf half rows) user p0 mc cfg m rows 3 rf rl cf cl sr sc hw (exWorldOf_contract half rows hne.1) hu hd h1 h2 hz hne.2
    (fun _ _ _ => ⟨_, _, rfl⟩) hc)

/-- The full statement is false: a dichotomy with a step of two columns is accepted, the run raises a ValueError. -/
theorem C81_dichotomy_step_false : ¬ C81Statement :=
  C81_false_of 0 5 (exUserWith none 1 2 (some exDicho) (some (.int 0))) _ 1 2 0 2 1 2
    (by simp [exUserWith, exInput, exPipeline, exDicho, dict, Fields.append, Fields.wf, J.wf, Fields.keys]) rfl (by decide)
    ⟨_, rfl, .inl ⟨_, _, rfl, .inl rfl, .inl rfl⟩⟩ (exZone _ _ _ _ _) (by decide) (by decide +kernel) (by decide +kernel)

/-- The full statement is false: with an estimation and a ROI, initial disparities which are null are accepted, the run raises a
NameError. -/
theorem C81_estimation_null_false : ¬ C81Statement :=
  C81_false_of 0 5 (exUserWith (some exEst) 1 1 none (some .null)) _ 1 2 0 2 1 1
    (by simp [exUserWith, exInput, exPipeline, exEst, dict, Fields.append, Fields.wf, J.wf, Fields.keys]) rfl (by decide)
    ⟨_, rfl, .inl ⟨_, _, rfl, .inl rfl, .inl rfl⟩⟩ (exZone _ _ _ _ _) (by decide) (by decide +kernel) (by decide +kernel)

/-- An initial disparity for the rows and a grid for the columns, with an estimation and a ROI. -/
def exUserMixed : Fields := dict [
  ("input", .obj (dict [("left", .obj (dict [("img", .str "left.tif")])),
    ("right", .obj (dict [("img", .str "right.tif"), ("nodata", .str "NaN")])),
    ("row_disparity", .obj (dict [("init", .int 0), ("range", .int 1)])),
    ("col_disparity", .obj (dict [("init", .str "grid.tif"), ("range", .int 1)]))])),
  ("ROI", .obj (dict [("row", .obj (dict [("first", .int 1), ("last", .int 2)])), ("col", .obj (dict [("first", .int 0), ("last", .int 2)]))])),
  ("pipeline", .obj (exPipeline (some exEst) 1 1 none))]

/-- The full statement is false: with an estimation and a ROI, an integer for the rows and a grid for the columns are accepted, the run
raises an exception. -/
theorem C81_estimation_mixed_false : ¬ C81Statement :=
  C81_false_of 0 5 exUserMixed _ 1 2 0 2 1 1
    (by simp [exUserMixed, exPipeline, exEst, dict, Fields.append, Fields.wf, J.wf, Fields.keys]) rfl (by decide)
    ⟨_, rfl, .inl ⟨_, _, rfl, .inl rfl, .inl rfl⟩⟩
    (.inl ⟨_, rfl, _, _, _, _, _, _, _, rfl, rfl, rfl, rfl, rfl, rfl, rfl, .inl rfl, .inl rfl, .inl rfl, .inl rfl⟩) (by decide)
    (by decide +kernel) (by decide +kernel)

/-- C81 holds for an estimation with a ROI and two grids. -/
example : (Main.main exWorldI (exUserWith (some exEst) 2 1 none (some (.str "grid.tif")))).2 = none := by
  obtain ⟨m, cfg, h⟩ := accepted_ok (w := exWorldI) (user := exUserWith (some exEst) 2 1 none (some (.str "grid.tif"))) (by decide +kernel)
  refine C81_accepted_runs_partial exWorldI _ _ _ cfg m 5 3 1 2 0 2 2 1 ?_ exWorldI_contract rfl (by decide) rfl
    (.inl ⟨_, _, rfl, .inl rfl, .inl rfl⟩) (exZone _ _ _ _ _) (by decide) ?_ (fun v hv => by simp [exPipeline, dict, Fields.append, Fields.get] at hv)
    (.inr (.inl (by decide))) h
  · simp [exUserWith, exInput, exPipeline, exEst, dict, Fields.append, Fields.wf, J.wf, Fields.keys]
  · intro _
    exact ⟨fun _ _ _ => ⟨_, _, rfl⟩, .inr ⟨_, rfl, .inr ⟨⟨_, "grid.tif", rfl, rfl, by decide⟩, _, "grid.tif", rfl, rfl, by decide⟩⟩⟩

/-- The full statement is false: grids of disparities with a step of two rows are accepted, the run raises an IndexError. -/
theorem C81_grid_step_false : ¬ C81Statement :=
  C81_false_of 0 5 (exUserWith none 2 1 none (some (.str "grid.tif"))) _ 1 2 0 2 2 1
    (by simp [exUserWith, exInput, exPipeline, dict, Fields.append, Fields.wf, J.wf, Fields.keys]) rfl (by decide)
    ⟨_, rfl, .inl ⟨_, _, rfl, .inl rfl, .inl rfl⟩⟩ (exZone _ _ _ _ _) (by decide) (by decide +kernel) (by decide +kernel)

/-- The full statement is false: an optical flow with a window of seven pixels is accepted for an image of three columns, the run raises an
IndexError. -/
theorem C81_flow_small_false : ¬ C81Statement :=
  C81_false_of 3 5 (exUserWhole 1 1 (some exFlow) (some (.int 0))) _ 0 4 0 2 1 1
    (by simp [exUserWhole, exInput, exPipeline, exFlow, dict, Fields.append, Fields.wf, J.wf, Fields.keys]) rfl (by decide)
    ⟨_, rfl, .inl ⟨_, _, rfl, .inl rfl, .inl rfl⟩⟩ (.inr ⟨rfl, rfl, rfl, rfl, rfl⟩) (by decide) (by decide +kernel) (by decide +kernel)

/-- A ROI which is all the columns, and the rows 1 to 8. -/
def exUserRows (sr sc : Int) (refinement : Option J) (init : Option J) : Fields := dict [
  ("input", exInput init),
  ("ROI", .obj (dict [("row", .obj (dict [("first", .int 1), ("last", .int 8)])), ("col", .obj (dict [("first", .int 0), ("last", .int 2)]))])),
  ("pipeline", .obj (exPipeline none sr sc refinement))]

/-- The full statement is false: an optical flow with a step of two rows, raises with a ROI where its window fits, because of the
number of its points; it runs without ROI. -/
theorem C81_flow_roi_false : ¬ C81Statement ∧ WindowFits 1 2 (8 - 1 + 1) ∧ (Main.main (exWorldOf 1 9) (exUserWhole 2 1 (some exFlow) (some (.int 0)))).2 = none :=
  ⟨C81_false_of 1 9 (exUserRows 2 1 (some exFlow) (some (.int 0))) _ 1 8 0 2 2 1
    (by simp [exUserRows, exInput, exPipeline, exFlow, dict, Fields.append, Fields.wf, J.wf, Fields.keys]) rfl (by decide)
    ⟨_, rfl, .inl ⟨_, _, rfl, .inl rfl, .inl rfl⟩⟩
    (.inl ⟨_, rfl, _, _, _, _, _, _, _, rfl, rfl, rfl, rfl, rfl, rfl, rfl, .inl rfl, .inl rfl, .inl rfl, .inl rfl⟩) (by decide)
    (by decide +kernel) (by decide +kernel), ⟨1, 2, by decide⟩, by decide +kernel⟩

/-- The exceptions. -/
example : (Main.main exWorldI (exUserWith none 1 2 (some exDicho) (some (.int 0)))).2 = some .valueError ∧
    (Main.main exWorldI (exUserWith (some exEst) 1 1 none (some .null))).2 = some .nameError ∧
    (Main.main exWorldI (exUserWith none 2 1 none (some (.str "grid.tif")))).2 = some .indexError ∧
    (Main.main (exWorldOf 3) (exUserWhole 1 1 (some exFlow) (some (.int 0)))).2 = some .indexError ∧
    (Main.main (exWorldOf 1 9) (exUserRows 2 1 (some exFlow) (some (.int 0)))).2 = some .valueError := by decide +kernel

end Verif.Props
