import Verif.Model.Estimation
import Verif.Props.Config
import Verif.Props.ImgTools
import Verif.Spec.Estimation
import Mathlib.Tactic.Linarith
import Mathlib.Tactic.NormNum

/-!
# C39, C59, C60: the estimation step
-/

namespace Verif.Props

open Verif Verif.Config Verif.ImgTools Verif.Estimation Verif.Spec

/-! ## Rounding -/

theorem pyRound_isRounding (x : Rat) : IsRounding x (pyRound x) := by
  have h1 := Int.floor_le x
  have h2 := Int.lt_floor_add_one x
  unfold pyRound IsRounding
  simp only
  split_ifs with a b c
  · refine ⟨?_, fun h => ?_⟩
    · rw [abs_le]; constructor <;> linarith
    · rw [abs_of_nonneg (by linarith)] at h; linarith
  · push_cast
    refine ⟨?_, fun h => ?_⟩
    · rw [abs_le]; constructor <;> linarith
    · rw [abs_of_nonpos (by linarith)] at h; linarith
  · refine ⟨?_, fun _ => c⟩
    rw [abs_le]; constructor <;> linarith
  · push_cast
    refine ⟨?_, fun _ => by omega⟩
    rw [abs_le]; constructor <;> linarith

/-- The rounding is determined by its specification. -/
theorem isRounding_unique {x : Rat} {i j : Int} (hi : IsRounding x i) (hj : IsRounding x j) : i = j := by
  obtain ⟨h1, h2⟩ := hi
  obtain ⟨h3, h4⟩ := hj
  rw [abs_le] at h1 h3
  by_contra hne
  rcases lt_or_gt_of_ne hne with h | h
  · have h' : (i : Rat) + 1 ≤ j := by exact_mod_cast h
    have ei : x - i = 1 / 2 := by linarith
    have ej : x - j = -(1 / 2) := by linarith
    have := h2 (by rw [ei]; norm_num)
    have := h4 (by rw [ej]; norm_num)
    have : (j : Rat) = i + 1 := by linarith
    have : j = i + 1 := by exact_mod_cast this
    omega
  · have h' : (j : Rat) + 1 ≤ i := by exact_mod_cast h
    have ei : x - i = -(1 / 2) := by linarith
    have ej : x - j = 1 / 2 := by linarith
    have := h2 (by rw [ei]; norm_num)
    have := h4 (by rw [ej]; norm_num)
    have : (i : Rat) = j + 1 := by linarith
    have : i = j + 1 := by exact_mod_cast this
    omega

/-! ## C39 -/

/-- The ranges accepted by the check of the estimation step are at least 3. -/
theorem estimation_range (bi : Bool) (f g : Fields) (h : estimationCheck bi (.obj f) = .ok (.obj g)) (k : String)
    (hk : k = "range_row" ∨ k = "range_col") : ∃ v i, g.get k = some v ∧ IsInt bi v i ∧ 3 ≤ i ∧ i % 2 = 1 := by
  simp only [estimationCheck] at h
  split at h
  · simp at h
  · split_ifs at h with h1 h2
    have hg := J.obj.inj (Except.ok.inj h)
    subst hg
    unfold estimationSchema at h2
    rw [dictOf_iff] at h2
    have h3 := h2.2
    have : ∃ v, (fillEstimation f).get k = some v ∧
        intAnd bi (fun x => decide (2 < x) && decide (x % 2 ≠ 0)) v = true := by
      rcases hk with rfl | rfl
      · exact h3 _ (List.mem_cons_of_mem _ List.mem_cons_self)
      · exact h3 _ (List.mem_cons_of_mem _ (List.mem_cons_of_mem _ List.mem_cons_self))
    obtain ⟨v, hv, hi⟩ := this
    rw [intAnd_iff] at hi
    obtain ⟨i, hi, hp⟩ := hi
    simp only [Bool.and_eq_true, decide_eq_true_eq] at hp
    exact ⟨v, i, hv, hi, by omega, by omega⟩
  · simp at h

/-- `computeEstimation` on finite shifts. -/
theorem computeEstimation_fin (sr sc : Rat) (rr rc : Int) : computeEstimation (.fin sr, .fin sc) rr rc =
    .ok ⟨⟨.const (pyRound (-sr)), rr⟩, ⟨.const (pyRound (-sc)), rc⟩, (.fin (-sr), .fin (-sc))⟩ := rfl

/-- The result of the step is that of its two parts. -/
theorem estimationRun_fin (sr sc : Rat) (error phaseDiff : J) (rr rc row0 col0 : Int) (h w : Nat) (cfg : Fields) :
    estimationRun (.fin sr, .fin sc) error phaseDiff rr rc row0 col0 h w cfg =
      (updateCfg cfg (dispDict (pyRound (-sc)) rc) (dispDict (pyRound (-sr)) rr) (.fin (-sr), .fin (-sc)) error phaseDiff).map
        fun out => (⟨⟨h, w, fun _ _ => pyRound (-sr) - rr⟩, ⟨h, w, fun _ _ => pyRound (-sr) + rr⟩,
          (pyRound (-sr) - rr, pyRound (-sr) + rr)⟩, ⟨⟨h, w, fun _ _ => pyRound (-sc) - rc⟩,
          ⟨h, w, fun _ _ => pyRound (-sc) + rc⟩, (pyRound (-sc) - rc, pyRound (-sc) + rc)⟩, out) := by
  simp only [estimationRun, computeEstimation_fin, bind, Except.bind, pure, Except.pure, getMinMax, sgn, Bool.false_eq_true,
    if_false, mul_one]
  cases updateCfg cfg (dispDict (pyRound (-sc)) rc) (dispDict (pyRound (-sr)) rr) (.fin (-sr), .fin (-sc)) error phaseDiff <;> rfl

/-- C39: for every pair of shifts, the estimation step gives the left image, at every pixel and in both directions, the interval
[i - range, i + range] where `i` is the opposite of the shift rounded to the nearest integer. -/
theorem C39_search_range (sr sc : Rat) (error phaseDiff : J) (rr rc row0 col0 : Int) (h w : Nat) (cfg : Fields)
    (rowGrid colGrid : MinMax) (out : Fields)
    (hrun : estimationRun (.fin sr, .fin sc) error phaseDiff rr rc row0 col0 h w cfg = .ok (rowGrid, colGrid, out)) :
    Searches rowGrid h w (-sr) rr ∧ Searches colGrid h w (-sc) rc := by
  rw [estimationRun_fin] at hrun
  cases hu : updateCfg cfg (dispDict (pyRound (-sc)) rc) (dispDict (pyRound (-sr)) rr) (.fin (-sr), .fin (-sc)) error phaseDiff with
  | error e => rw [hu] at hrun; simp [Except.map] at hrun
  | ok c =>
    rw [hu] at hrun
    simp only [Except.map, Except.ok.injEq, Prod.mk.injEq] at hrun
    obtain ⟨rfl, rfl, rfl⟩ := hrun
    exact ⟨⟨_, pyRound_isRounding _, rfl, rfl, rfl, rfl, rfl, fun _ _ => ⟨rfl, rfl⟩⟩,
      ⟨_, pyRound_isRounding _, rfl, rfl, rfl, rfl, rfl, fun _ _ => ⟨rfl, rfl⟩⟩⟩

/-- C39: with a range accepted by the check of the step (at least 3), the estimated displacement is strictly inside the interval,
with at least two pixels and a half on each side. -/
theorem C39_shift_inside (x : Rat) (range : Int) (hr : 3 ≤ range) (g : MinMax) (h w : Nat) (hs : Searches g h w x range)
    (r c : Nat) : (g.lo.get r c : Rat) < x ∧ x < g.hi.get r c ∧ 5 / 2 ≤ x - g.lo.get r c ∧ 5 / 2 ≤ g.hi.get r c - x := by
  obtain ⟨i, ⟨hi, -⟩, -, -, -, -, -, hg⟩ := hs
  obtain ⟨h1, h2⟩ := hg r c
  rw [h1, h2]
  rw [abs_le] at hi
  have hr' : (3 : Rat) ≤ range := by exact_mod_cast hr
  push_cast
  refine ⟨?_, ?_, ?_, ?_⟩ <;> linarith

/-- C39: the step succeeds on every configuration which has an input section and an estimation section, and the configuration
holds the same intervals, in both directions, and the opposite of the shifts, rows first; nothing else is changed. -/
theorem C39_configuration (sr sc : Rat) (error phaseDiff : J) (rr rc row0 col0 : Int) (h w : Nat) (cfg inp pl est : Fields)
    (hi : cfg.get "input" = some (.obj inp)) (hp : cfg.get "pipeline" = some (.obj pl))
    (he : pl.get "estimation" = some (.obj est)) :
    ∃ rowGrid colGrid out ri ci inp' pl' est', estimationRun (.fin sr, .fin sc) error phaseDiff rr rc row0 col0 h w cfg =
        .ok (rowGrid, colGrid, out) ∧
      IsRounding (-sr) ri ∧ IsRounding (-sc) ci ∧
      rowGrid.src = (ri - rr, ri + rr) ∧ colGrid.src = (ci - rc, ci + rc) ∧
      out.get "input" = some (.obj inp') ∧
      inp'.get "row_disparity" = some (.obj (.cons "init" (.int ri) (.cons "range" (.int rr) .nil))) ∧
      inp'.get "col_disparity" = some (.obj (.cons "init" (.int ci) (.cons "range" (.int rc) .nil))) ∧
      (∀ k, k ≠ "row_disparity" → k ≠ "col_disparity" → inp'.get k = inp.get k) ∧
      out.get "pipeline" = some (.obj pl') ∧ pl'.get "estimation" = some (.obj est') ∧
      (∀ k, k ≠ "estimation" → pl'.get k = pl.get k) ∧
      est'.get "estimated_shifts" = some (.arr (.cons (.float (.fin (-sr))) (.cons (.float (.fin (-sc))) .nil))) ∧
      est'.get "error" = some error ∧ est'.get "phase_diff" = some phaseDiff ∧
      (∀ k, k ≠ "estimated_shifts" → k ≠ "error" → k ≠ "phase_diff" → est'.get k = est.get k) ∧
      (∀ k, k ≠ "input" → k ≠ "pipeline" → out.get k = cfg.get k) := by
  have hu : updateCfg cfg (dispDict (pyRound (-sc)) rc) (dispDict (pyRound (-sr)) rr) (.fin (-sr), .fin (-sc)) error phaseDiff =
      .ok ((cfg.set "input" (.obj ((inp.set "col_disparity" (dispDict (pyRound (-sc)) rc)).set "row_disparity"
        (dispDict (pyRound (-sr)) rr)))).set "pipeline" (.obj (pl.set "estimation" (.obj (((est.set "estimated_shifts"
          (.arr (.cons (.float (.fin (-sr))) (.cons (.float (.fin (-sc))) .nil)))).set "error" error).set
        "phase_diff" phaseDiff))))) := by
    simp only [updateCfg, modifyIn, hi, bind, Except.bind, pure, Except.pure]
    rw [Fields.get_set, if_neg (by decide), hp]
    simp only [he]
  rw [estimationRun_fin, hu]
  refine ⟨_, _, _, pyRound (-sr), pyRound (-sc), (inp.set "col_disparity" (dispDict (pyRound (-sc)) rc)).set "row_disparity"
    (dispDict (pyRound (-sr)) rr), pl.set "estimation" (.obj (((est.set "estimated_shifts"
      (.arr (.cons (.float (.fin (-sr))) (.cons (.float (.fin (-sc))) .nil)))).set "error" error).set "phase_diff" phaseDiff)),
    ((est.set "estimated_shifts"
      (.arr (.cons (.float (.fin (-sr))) (.cons (.float (.fin (-sc))) .nil)))).set "error" error).set "phase_diff" phaseDiff, rfl, pyRound_isRounding _, pyRound_isRounding _, rfl, rfl,
    ?_, ?_, ?_, ?_, ?_, ?_, ?_, ?_, ?_, ?_, ?_, ?_⟩
  · rw [Fields.get_set, if_neg (by decide), Fields.get_set, if_pos rfl]
  · rw [Fields.get_set, if_pos rfl]; rfl
  · rw [Fields.get_set, if_neg (by decide), Fields.get_set, if_pos rfl]; rfl
  · intro k h1 h2; rw [Fields.get_set, if_neg (Ne.symm h1), Fields.get_set, if_neg (Ne.symm h2)]
  · rw [Fields.get_set, if_pos rfl]
  · rw [Fields.get_set, if_pos rfl]
  · intro k h1; rw [Fields.get_set, if_neg (Ne.symm h1)]
  · rw [Fields.get_set, if_neg (by decide), Fields.get_set, if_neg (by decide), Fields.get_set, if_pos rfl]
  · rw [Fields.get_set, if_neg (by decide), Fields.get_set, if_pos rfl]
  · rw [Fields.get_set, if_pos rfl]
  · intro k h1 h2 h3; rw [Fields.get_set, if_neg (Ne.symm h3), Fields.get_set, if_neg (Ne.symm h2), Fields.get_set, if_neg (Ne.symm h1)]
  · intro k h1 h2; rw [Fields.get_set, if_neg (Ne.symm h2), Fields.get_set, if_neg (Ne.symm h1)]

/-- Error branch: shifts which are not numbers stop the step and nothing is returned. -/
theorem C39_nan_raises (s : F Rat × F Rat) (error phaseDiff : J) (rr rc row0 col0 : Int) (h w : Nat) (cfg : Fields)
    (hs : (∀ q, s.1 ≠ .fin q) ∨ (∀ q, s.2 ≠ .fin q)) :
    estimationRun s error phaseDiff rr rc row0 col0 h w cfg = .error .valueError := by
  obtain ⟨a, b⟩ := s
  cases a <;> cases b <;> first | rfl | (exfalso; simp at hs)

/-- A configuration for the tests. -/
def testCfg : Fields :=
  mk [("input", .obj (mk [("left", .null)])), ("pipeline", .obj (mk [("estimation", .obj (mk
    [("estimation_method", .str "phase_cross_correlation")]))]))]

/-- Tests: the hypotheses of C39 are met; a shift of 2.5 gives -2, a shift of -3.5 gives 4. -/
example : ∃ g g' out, estimationRun (.fin (5 / 2), .fin (-7 / 2)) (.int 0) (.int 0) 3 5 0 0 10 10 testCfg = .ok (g, g', out) ∧
    g.src = (-5, 1) ∧ g'.src = (-1, 9) := by
  rw [estimationRun_fin]
  refine ⟨_, _, _, rfl, ?_, ?_⟩ <;> decide +kernel
example : estimationCheck false (.obj (mk [("estimation_method", .str "phase_cross_correlation"), ("range_row", .int 3)])) =
    .ok (.obj (mk [("estimation_method", .str "phase_cross_correlation"), ("range_row", .int 3), ("range_col", .int 5),
      ("sample_factor", .int 1)])) := by decide +kernel

/-! ## C59: ROI and estimation -/

/-- C59, full statement: with a ROI, the margins read around it cover the disparities found by the estimation, whatever the
disparities of the input section were at the time of the reading. -/
def C59Statement : Prop :=
  ∀ (roi : Roi) (col row : Disp) (out after : Roi), getRoiProcessing roi col row = .ok (out, after) →
    ∀ (s : Rat) (e : Estimated) (range : Int), 3 ≤ range → computeEstimation (.fin s, .fin s) range range = .ok e →
      ∀ x δ, roi.colFirst ≤ x → x ≤ roi.colLast → InDispRange e.col δ →
        out.colFirst - out.margins.left ≤ x + δ ∧ x + δ ≤ out.colLast + out.margins.right

/-- It is false of the code: the margins are computed before the estimation, from the disparities of the input section. -/
theorem C59_false : ¬ C59Statement := by
  intro h
  have := h ⟨100, 200, 100, 200, ⟨2, 2, 2, 2⟩⟩ ⟨.const 0, 2⟩ ⟨.const 0, 2⟩ _ _ rfl 20 _ 5 (by decide)
    (computeEstimation_fin 20 20 5 5) 100 (-20) (by decide) (by decide)
    (by show pyRound (-20) - 5 ≤ -20 ∧ -20 ≤ pyRound (-20) + 5; decide +kernel)
  revert this
  decide

/-- C59 (partial): when the user gives no disparity, the margins come from the placeholder -9997 ± 2 and cover the estimated
disparities as long as they are between -9999 and 9995. Missing: disparities given by the user (`C59_false`) and
displacements of ten thousand pixels. -/
theorem C59_placeholder_partial (roi : Roi) (out after : Roi)
    (h : getRoiProcessing roi ⟨.const (-9997), 2⟩ ⟨.const (-9997), 2⟩ = .ok (out, after))
    (sr sc : Rat) (rr rc : Int) (e : Estimated) (he : computeEstimation (.fin sr, .fin sc) rr rc = .ok e)
    (h1 : (rr : Rat) + |sr| ≤ 9994) (h2 : (rc : Rat) + |sc| ≤ 9994) :
    (∀ x δ, roi.colFirst ≤ x → x ≤ roi.colLast → InDispRange e.col δ →
      out.colFirst - out.margins.left ≤ x + δ ∧ x + δ ≤ out.colLast + out.margins.right) ∧
    (∀ x δ, roi.rowFirst ≤ x → x ≤ roi.rowLast → InDispRange e.row δ →
      out.rowFirst - out.margins.up ≤ x + δ ∧ x + δ ≤ out.rowLast + out.margins.down) := by
  rw [computeEstimation_fin] at he
  have he' := Except.ok.inj he
  subst he'
  simp only [getRoiProcessing, Except.ok.injEq, Prod.mk.injEq] at h
  obtain ⟨rfl, -⟩ := h
  have key : ∀ (s : Rat) (r : Int), (r : Rat) + |s| ≤ 9994 → -9995 ≤ pyRound (-s) - r ∧ pyRound (-s) + r ≤ 9995 := by
    intro s r hs
    have h3 := (pyRound_isRounding (-s)).1
    rw [abs_le] at h3
    have h4 := neg_abs_le s
    have h5 := le_abs_self s
    have a : (-9995 : Rat) ≤ ((pyRound (-s) - r : Int) : Rat) := by push_cast; linarith
    have b : ((pyRound (-s) + r : Int) : Rat) ≤ (9995 : Rat) := by push_cast; linarith
    exact ⟨by exact_mod_cast a, by exact_mod_cast b⟩
  have hc := key sc rc h2
  have hr := key sr rr h1
  constructor
  · intro x δ a b hd
    have hd' : pyRound (-sc) - rc ≤ δ ∧ δ ≤ pyRound (-sc) + rc := hd
    have m1 : (9999 : Int) ≤ max |(-9997 : Int) - 2| roi.margins.left := le_max_left _ _
    have m2 : (9995 : Int) ≤ max |(-9997 : Int) + 2| roi.margins.right := le_max_left _ _
    simp only [dispBounds] at *
    omega
  · intro x δ a b hd
    have hd' : pyRound (-sr) - rr ≤ δ ∧ δ ≤ pyRound (-sr) + rr := hd
    have m1 : (9999 : Int) ≤ max |(-9997 : Int) - 2| roi.margins.up := le_max_left _ _
    have m2 : (9995 : Int) ≤ max |(-9997 : Int) + 2| roi.margins.down := le_max_left _ _
    simp only [dispBounds] at *
    omega

/-- The disparities of an input section without disparities, with estimation, are the placeholder of `C59_placeholder_partial`. -/
example : (checkInputSection testEnv (mk [("input", .obj (mk [("left", .obj (mk [("img", .str "left.tif")])),
      ("right", .obj (mk [("img", .str "right.tif")]))]))]) true).toOption.bind (fun cfg => (J.obj cfg).at ["input", "col_disparity"]) =
    some (.obj (mk [("init", .int (-9997)), ("range", .int 2)])) := by decide +kernel

/-! ## C60: the completed configuration -/

/-- C60, full statement: the configuration completed by the run is accepted again by the check of its estimation section. -/
def C60Statement : Prop :=
  ∀ (bi : Bool) (est checked : Fields), estimationCheck bi (.obj est) = .ok (.obj checked) →
    ∀ (cfg : Fields) (sr sc : Rat) (error phaseDiff : J) (rr rc row0 col0 : Int) (h w : Nat) (g g' : MinMax) (out pl' est' : Fields),
      (J.obj cfg).at ["pipeline", "estimation"] = some (.obj checked) →
      estimationRun (.fin sr, .fin sc) error phaseDiff rr rc row0 col0 h w cfg = .ok (g, g', out) →
      out.get "pipeline" = some (.obj pl') → pl'.get "estimation" = some (.obj est') →
      ∃ c, estimationCheck bi (.obj est') = .ok c

/-- The extra keys make the schema refuse the section. -/
theorem estimationCheck_extra (bi : Bool) (f : Fields) (hk : (f.get "estimated_shifts").isSome = true) (c : J) :
    estimationCheck bi (.obj f) ≠ .ok c := by
  intro h
  simp only [estimationCheck] at h
  split at h
  · simp at h
  · split_ifs at h with h1 h2
    unfold estimationSchema at h2
    rw [dictOf_iff] at h2
    have hm : "estimated_shifts" ∈ (fillEstimation f).keys := by
      rw [← Fields.get_isSome]
      obtain ⟨v, hv⟩ := Option.isSome_iff_exists.1 hk
      unfold fillEstimation
      rw [setDefault_keeps _ _ (setDefault_keeps _ _ (setDefault_keeps _ _ hv))]
      rfl
    have := h2.1 _ hm
    revert this
    simp
  · simp at h

/-- C60 is false of the code, for every configuration: after the run the estimation section is refused by its own check, because
of the keys written by the run. -/
theorem C60_never_accepted_again (bi : Bool) (sr sc : Rat) (error phaseDiff : J) (rr rc row0 col0 : Int) (h w : Nat)
    (cfg inp pl est : Fields) (hi : cfg.get "input" = some (.obj inp)) (hp : cfg.get "pipeline" = some (.obj pl))
    (he : pl.get "estimation" = some (.obj est)) :
    ∃ g g' out pl' est', estimationRun (.fin sr, .fin sc) error phaseDiff rr rc row0 col0 h w cfg = .ok (g, g', out) ∧
      out.get "pipeline" = some (.obj pl') ∧ pl'.get "estimation" = some (.obj est') ∧
      ∀ c, estimationCheck bi (.obj est') ≠ .ok c := by
  obtain ⟨g, g', out, ri, ci, inp', pl', est', h1, -, -, -, -, -, -, -, -, h2, h3, -, h4, -⟩ :=
    C39_configuration sr sc error phaseDiff rr rc row0 col0 h w cfg inp pl est hi hp he
  exact ⟨g, g', out, pl', est', h1, h2, h3, estimationCheck_extra bi est' (by rw [h4]; rfl)⟩

theorem C60_false : ¬ C60Statement := by
  intro hst
  let est := mk [("estimation_method", .str "phase_cross_correlation")]
  let checked := mk [("estimation_method", .str "phase_cross_correlation"), ("range_col", .int 5), ("range_row", .int 5),
    ("sample_factor", .int 1)]
  let pl := mk [("estimation", .obj checked)]
  let cfg := mk [("input", .obj .nil), ("pipeline", .obj pl)]
  have h0 : estimationCheck true (.obj est) = .ok (.obj checked) := by decide +kernel
  obtain ⟨g, g', out, pl', est', h1, h2, h3, h4⟩ := C60_never_accepted_again true 0 0 .null .null 5 5 0 0 10 10 cfg .nil pl checked
    rfl rfl rfl
  obtain ⟨c, hc⟩ := hst true est checked h0 cfg 0 0 .null .null 5 5 0 0 10 10 g g' out pl' est' rfl h1 h2 h3
  exact h4 c hc

/-- C60, ROI: once the margins are written in the ROI section (`main`, 105-108), it is refused by its own check. -/
theorem C60_roi_margins (bi : Bool) (f : Fields) (margins : J) (hw : (J.obj (f.set "margins" margins)).wf) (out : Fields) :
    checkRoiSection bi (.cons "ROI" (.obj (f.set "margins" margins)) .nil) ≠ .ok out := by
  intro h
  have hr := (C36_accepted_iff bi _ hw).1.1 ⟨out, h⟩
  obtain ⟨g, r, c, hg, hk, -⟩ := hr
  have hg' := J.obj.inj hg
  subst hg'
  have : "margins" ∈ (f.set "margins" margins).keys := by
    rw [← Fields.get_isSome, Fields.get_set, if_pos rfl]; rfl
  have := (hk _).1 this
  revert this
  decide

end Verif.Props
