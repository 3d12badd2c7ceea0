import Verif.Props.Rebuild
import Verif.Props.Main
import Verif.Props.OpticalFlowPipeline
import Verif.Props.Translation
import Verif.Props.Interpolation

/-!
# C81: an accepted configuration runs to the end
-/

namespace Verif.Props

open Verif Verif.Config Verif.Machine Verif.ImgTools Verif.MatchingCost Verif.Disparity Verif.Estimation Verif.Run Verif.Main Verif.Spec
  Verif.Save Verif.Statistics

set_option linter.unusedSectionVars false

variable {K : Type} [Field K] [LinearOrder K] [IsStrictOrderedRing K] [FloorRing K]

/-! ## The maps -/

/-- The disparity step succeeds on computed volumes. -/
theorem maps_of_volumes {z : Zoom K} {pc : Pandora.Cost K} {cfg : Cfg} {roi : Option Roi} {left : Left K} {right : Img K}
    {margins : Option Margins} {cv : CostVolumes K} (hp : PairOk left right) (hs : 0 < cfg.subpix) (h1 : 1 ≤ cfg.stepRow)
    (h : computeCostVolumes z pc cfg roi left right margins = .ok cv) (invalid : F K) :
    ∃ out, computeDispMaps invalid cv = .ok out ∧ (out.col.h = cv.row.n ∧ out.col.w = cv.col.n) ∧
      (out.row.h = cv.row.n ∧ out.row.w = cv.col.n) ∧ (out.score.h = cv.row.n ∧ out.score.w = cv.col.n) := by
  obtain ⟨lr, lc⟩ := C13_axes_full_lattice hp hs h1 h
  have ic := src_le hp.col
  have ir := src_le hp.row
  obtain ⟨i, hi, ei⟩ := int_index hs lc (d := left.colDisp.src.1) (by omega) (by omega)
  obtain ⟨j, hj, ej⟩ := int_index hs lr (d := left.rowDisp.src.1) (by omega) (by omega)
  exact maps_exist invalid cv
    ⟨i, src_userCol hp hs h1 h hi (by rw [ei]; exact ⟨le_refl _, Int.cast_le.2 ic⟩)⟩
    ⟨j, src_userRow hp hs h1 h hj (by rw [ej]; exact ⟨le_refl _, Int.cast_le.2 ir⟩)⟩

/-- A window of `2 * half + 1` centred on a point of the step lattice fits between the first and the last points of an axis of `n`
pixels. -/
def WindowFits (half step n : Nat) : Prop := ∃ k j, half ≤ k * step ∧ k * step + half ≤ j * step ∧ j * step < n

theorem WindowFits.mono {half step n m : Nat} (h : WindowFits half step n) (hm : n ≤ m) : WindowFits half step m := by
  obtain ⟨k, j, h1, h2, h3⟩ := h
  exact ⟨k, j, h1, h2, by omega⟩

theorem inner_of_fits {half step n : Nat} {c0 : Int} (hs : 1 ≤ step) (h : WindowFits half step n) :
    ∃ k, InnerIdx (arangeA c0 (c0 + n) step) half k := by
  obtain ⟨k, j, h1, h2, h3⟩ := h
  have hj : j < (arangeA c0 (c0 + n) step).n := by
    rw [arange_count c0 n step hs]
    have : (j + 1) * step ≤ n + step - 1 := by rw [Nat.add_mul]; omega
    exact (Nat.le_div_iff_mul_le (by omega)).2 this
  have hk : k ≤ j := Nat.le_of_mul_le_mul_right (show k * step ≤ j * step by omega) (by omega)
  have hl : j * step ≤ ((arangeA c0 (c0 + n) step).n - 1) * step := Nat.mul_le_mul_right _ (by omega)
  refine ⟨k, by omega, ?_, ?_⟩
  · show c0 + ((0 : Nat) : Int) * step + half ≤ c0 + (k : Int) * step
    have : (half : Int) ≤ ((k * step : Nat) : Int) := by exact_mod_cast h1
    push_cast at this ⊢
    omega
  · show c0 + (k : Int) * step + half ≤ c0 + (((arangeA c0 (c0 + n) step).n - 1 : Nat) : Int) * step
    have a : ((k * step + half : Nat) : Int) ≤ ((j * step : Nat) : Int) := by exact_mod_cast h2
    have b : ((j * step : Nat) : Int) ≤ ((((arangeA c0 (c0 + n) step).n - 1) * step : Nat) : Int) := by exact_mod_cast hl
    push_cast at a b
    omega

/-- The points of the cost volumes on an axis of `n` pixels: one has a window which fits, and there are as many points as when one pixel out of
`step` is kept from the first one. -/
def FlowPoints (margin : Option Int) (c0 : Int) (n step half : Nat) : Prop :=
  (∃ k, InnerIdx (arangeA (startCoord margin c0 step) (c0 + n) step) half k) ∧
    (arangeA (startCoord margin c0 step) (c0 + n) step).n = (n + step - 1) / step

theorem flowPoints_of_fits {margin : Option Int} {c0 : Int} {n step half : Nat} (hs : 1 ≤ step) (hm : margin = none ∨ step = 1)
    (h : WindowFits half step n) : FlowPoints margin c0 n step half := by
  have z : startCoord margin c0 step = c0 := by
    rcases hm with rfl | rfl
    · rfl
    · unfold startCoord; split <;> simp
  unfold FlowPoints
  rw [z]
  exact ⟨inner_of_fits hs h, arange_count _ _ _ hs⟩

/-- The refinements for which the run is known to succeed. -/
inductive Refinable (w : World K) (p : Plan K) (margins : Option Margins) (roi : Option Roi) (img : Img K) : Prop
  | none (e : p.refinements = [])
  | interpolation (e : p.refinements = [("refinement", .interpolation)]) (hi : InterpContract w.run.interp)
  | dichotomy (f : Filters.IFilter K) (it : Nat) (mg : Margins) (e : p.refinements = [("refinement", .dichotomy f it)])
      (hm : margins = some mg) (hf : FitsMargins f.left f.up f.size mg) (hc : HasCoeffs f it)
      (h1 : p.cfg.stepRow = 1) (h2 : p.cfg.stepCol = 1)
  | opticalFlow (half it : Nat) (e : p.refinements = [("refinement", .opticalFlow ⟨2 * half + 1, it⟩)]) (hh : 1 ≤ half)
      (ho : p.offset = half) (fr : FlowPoints (rowMargin roi) img.row0 img.h p.cfg.stepRow half)
      (fc : FlowPoints (colMargin roi) img.col0 img.w p.cfg.stepCol half)

/-- The run and the writing succeed. -/
theorem maps_forward {w : World K} {p : Plan K} {left L : Left K} {right : Img K} {roi : Option Roi} {margins : Option Margins}
    {H W : Nat} {rf rl cf cl : Int} {k : Nat} (hsr : searched w.run p left right = .ok L) (hp : PairOk L right)
    (hur : Uniform L.rowDisp L.img.h L.img.w) (huc : Uniform L.colDisp L.img.h L.img.w) (hcost : CostContract p.cost)
    (hk : p.cfg.subpix = 2 ^ k) (h1 : 1 ≤ p.cfg.stepRow) (h2 : 1 ≤ p.cfg.stepCol) (hz : ZoneOk L.img roi H W rf rl cf cl)
    (hne : rf ≤ rl ∧ cf ≤ cl)
    (hcase : (p.cfg.stepRow = 1 ∧ p.cfg.stepCol = 1) ∨
      (ConstantRange L.rowDisp L.img.h L.img.w ∧ ConstantRange L.colDisp L.img.h L.img.w))
    (href : Refinable w p margins roi L.img) :
    ∃ m, expectedMaps w.run roi margins left right p = .ok m ∧ ∀ (crs : Option String) (tr : Option (Affine K)), ∃ out,
      saveDataset ⟨⟨m.row, m.col, m.rowMap.get, m.colMap.get, m.score.get⟩, crs, tr⟩
        ⟨roi, some (p.cfg.stepRow, p.cfg.stepCol)⟩ = .ok out := by
  have hs : 0 < p.cfg.subpix := by rw [hk]; positivity
  have hcv : ∃ cv, computeCostVolumes w.run.zoom p.cost p.cfg roi L right margins = .ok cv := by
    rcases hcase with ⟨a, b⟩ | ⟨a, b⟩
    · exact volumes_exist_step_one hp hs a b
    · exact volumes_exist_constant hp hs h1 a b
  obtain ⟨cv, hcv⟩ := hcv
  obtain ⟨o, ho, s1, s2, s3⟩ := maps_of_volumes hp hs h1 hcv p.invalid
  have hpos : 0 < cv.row.n ∧ 0 < cv.col.n := by
    obtain ⟨files, after, -, q2, q3⟩ := saved_zone (β := F K) hp hs h1 h2 hz hcv o.row.get o.col.get o.score.get none none
    obtain ⟨-, r1, r2, -⟩ := q2 files.row List.mem_cons_self
    obtain ⟨r', hr', c', hc', -⟩ := q3 0 ((r1 0).2 (by simpa using hne.1)) 0 ((r2 0).2 (by simpa using hne.2))
    exact ⟨by omega, by omega⟩
  have href' : ∃ m, refinedAll w.run p L right cv (p.refinements.map Prod.snd) ⟨o.row, o.col, o.score⟩ = .ok m := by
    cases href with
    | none h => rw [h]; exact ⟨_, rfl⟩
    | interpolation h hi =>
      rw [h]
      obtain ⟨⟨oc, orr, os⟩, hx⟩ := C53_total (rowMap := o.row) hi s1 hpos
      obtain ⟨⟨a1, a2, a3, a4, a5, a6⟩, -⟩ := C53_own_surface s2.2 s1 hx
      simp only [List.map_cons, List.map_nil, refinedAll, refined, hx, bind, Except.bind, pure, Except.pure]
      rw [if_pos ⟨a3, a4, a1, a2, a5, a6⟩]
      exact ⟨_, rfl⟩
    | dichotomy f it mg h hm hf hc e1 e2 =>
      rw [h]
      subst hm
      obtain ⟨x, hx⟩ := C61_step_one_partial hp hur huc hcost hk e1 e2 hf hc hcv ho
      obtain ⟨⟨a1, a2⟩, ⟨a3, a4⟩, a5, a6⟩ := Verif.Dichotomy.method_shape hx
      unfold gridsOf at hx
      simp only [List.map_cons, List.map_nil, refinedAll, refined, hx, bind, Except.bind, pure, Except.pure]
      rw [if_pos ⟨a1, a2, a3, a4, a5, a6⟩]
      exact ⟨_, rfl⟩
    | opticalFlow half it h hh hof fr fc =>
      rw [h]
      obtain ⟨e1, e2, -⟩ := compute_char hp hs h1 hcv
      rw [rowCoords_eq] at e1
      rw [colCoords_eq] at e2
      obtain ⟨⟨xc, xr⟩, hx⟩ := flow_runs (e := w.run.flow) (junk := w.run.junk) hp hs h1 h2 hcv ho half it hh
        (by rw [e1]; exact fr.2) (by rw [e2]; exact fc.2) (by rw [e1]; exact fr.1) (by rw [e2]; exact fc.1)
      obtain ⟨⟨a1, a2, a3, a4⟩, -⟩ := C50_aligned (flow_setting hp hs h1 h2 hcv ho half it hh) hx
      unfold coordsOf at hx
      rw [← hof] at hx
      simp only [List.map_cons, List.map_nil, refinedAll, refined, ← hof, hx, bind, Except.bind, pure, Except.pure]
      rw [if_pos ⟨by rw [a3]; exact s2.1, by rw [a4]; exact s2.2, by rw [a1]; exact s2.1, by rw [a2]; exact s2.2, s3.1, s3.2⟩]
      exact ⟨_, rfl⟩
  obtain ⟨m, hm⟩ := href'
  refine ⟨⟨cv.row, cv.col, m.row, m.col, m.score, p.invalid⟩, ?_, fun crs tr => ?_⟩
  · unfold expectedMaps
    simp only [hsr, hcv, ho, hm, bind, Except.bind, pure, Except.pure]
  · obtain ⟨files, after, q1, -⟩ := saved_zone (β := F K) hp hs h1 h2 hz hcv m.row.get m.col.get m.score.get crs tr
    exact ⟨_, q1⟩

/-! ## The margins recorded by the check -/

/-- The margins of the checked refinement are recorded. -/
def RefRecorded (d : Machine.Attrs J Margins) : Prop :=
  ∀ k c, d.pipelineCfg.find? (fun p => decide (p.1 = "refinement")) = some (k, c) →
    d.nonCumulative.find? (fun p => decide (p.1 = "refinement")) = some ("refinement", refMargins c)

theorem recorded_one (w : World K) (cfg : Pipeline J) (s : String) (cb : Cb) (hcb : cb ∈ checkCallbacks s)
    (d : Machine.Attrs J Margins) (hd : RefRecorded d) : RefRecorded (checkExec w.steps cb cfg s d).1 := by
  unfold checkCallbacks at hcb
  split at hcb
  · simp only [List.mem_singleton] at hcb
    subst hcb
    simp only [checkExec]
    split
    · exact hd
    · intro k c h
      rw [dictSet_find, if_neg (by decide)] at h
      exact hd k c h
  · simp only [List.mem_singleton] at hcb
    subst hcb
    simp only [checkExec]
    split
    · exact hd
    · intro k c h
      rw [dictSet_find, if_neg (by decide)] at h
      exact hd k c h
  · simp only [List.mem_singleton] at hcb
    subst hcb
    simp only [checkExec]
    split
    · exact hd
    · intro k c h
      rw [dictSet_find, if_neg (by decide)] at h
      exact hd k c h
  · simp only [List.mem_singleton] at hcb
    subst hcb
    simp only [checkExec]
    split
    · exact hd
    · rename_i c0 m0 h0
      intro k c h
      rw [dictSet_find, if_pos rfl] at h
      simp only [Option.some.injEq, Prod.mk.injEq] at h
      obtain ⟨-, rfl⟩ := h
      simp only
      rw [dictSet_find, if_pos rfl]
      obtain ⟨p, -, hp⟩ := bind_eq_ok h0
      simp only [World.steps, stepsOf, Except.map] at hp
      split at hp
      · simp at hp
      · simp only [Except.ok.injEq, Prod.mk.injEq] at hp
        rw [← hp.2, ← hp.1]
  · simp at hcb

theorem recorded_all (w : World K) (cfg : Pipeline J) : ∀ (l : List (Cb × String)), (∀ x ∈ l, x.1 ∈ checkCallbacks x.2) →
    ∀ d : Machine.Attrs J Margins, RefRecorded d → RefRecorded (runCallbacks (checkExec w.steps) cfg l d).1
  | [], _, d, hd => hd
  | (cb, s) :: l, hl, d, hd => by
    unfold runCallbacks
    have h1 := recorded_one w cfg s cb (hl (cb, s) List.mem_cons_self) d hd
    split
    · rename_i d' e he
      rw [he] at h1
      exact h1
    · rename_i d' he
      rw [he] at h1
      exact recorded_all w cfg l (fun x hx => hl x (List.mem_cons_of_mem _ hx)) d' h1

/-- The margins given to the cost volumes are those of the checked refinement. -/
theorem refinement_margins {w : World K} {user p0 pl' : Fields} {m : Mach (Machine.Attrs J Margins)} (hw : user.wf)
    (hu : user.get "pipeline" = some (.obj p0))
    (h : checkPipelineJ w.steps user (fresh .init) = (m, .ok (.cons "pipeline" (.obj pl') .nil))) {k : String} {c : J}
    (hc : m.data.pipelineCfg.find? (fun p => decide (p.1 = "refinement")) = some (k, c)) :
    refinementMargins m.data = some (refMargins c) := by
  obtain ⟨-, -, -, hm, -⟩ := pipeline_new w.steps user p0 pl' m hw hu h
  have hrec : RefRecorded m.data := by
    rw [hm]
    refine recorded_all w _ _ ?_ _ ?_
    · intro x hx
      unfold checkPlan at hx
      rw [List.mem_flatMap] at hx
      obtain ⟨s, -, hx⟩ := hx
      rw [List.mem_map] at hx
      obtain ⟨cb, hcb, rfl⟩ := hx
      exact hcb
    · intro k c hk
      simp [Machine.Attrs.init] at hk
  have := hrec k c hc
  unfold refinementMargins lookup
  rw [this]

/-! ## The region of interest -/

theorem asRoi_of {v : J} {a b c d : Int} (h : RoiIs v a b c d) (m : RoiMargins) : asRoi v m = .ok ⟨c, d, a, b, m⟩ := by
  obtain ⟨f, r, q, x1, x2, x3, x4, rfl, e2, e3, e4, e5, e6, e7, i1, i2, i3, i4⟩ := h
  unfold asRoi roiDir
  simp only [asObj, bind, Except.bind, item, e2, e3, e4, e5, e6, e7, (asInt_iff _ _).2 i1, (asInt_iff _ _).2 i2, (asInt_iff _ _).2 i3,
    (asInt_iff _ _).2 i4, pure, Except.pure]

theorem roiOk_is {bi : Bool} {v : J} (h : RoiOk bi v) : ∃ a b c d, RoiIs v a b c d := by
  obtain ⟨f, r, q, rfl, -, e1, e2, ⟨fr, x, y, i, j, rfl, -, e3, e4, i1, i2, i3, i4⟩, fc, x', y', i', j', rfl, -, e3', e4', j1, j2, j3, j4⟩ := h
  exact ⟨i, j, i', j', f, fr, fc, x, y, x', y', rfl, e1, e2, e3, e4, e3', e4', isInt_true i1, isInt_true i2, isInt_true j1, isInt_true j2⟩

/-- Two constants or two grids. -/
def SameInit (a b : Disp) : Prop :=
  (∃ i j, a.init = .const i ∧ b.init = .const j) ∨ (∃ g h, a.init = .grid g ∧ b.init = .grid h)

theorem roiStep_forward {w : World K} {a : Machine.Attrs J Margins} {cfg : Fields} {col row : J} {bi : Bool}
    (hroi : ∀ v, cfg.get "ROI" = some v → RoiOk bi v)
    (hd : cfg.get "ROI" ≠ none → ∃ dc dr, Datasets.dispOf w.files col = .ok dc ∧ Datasets.dispOf w.files row = .ok dr ∧ SameInit dc dr) :
    ∃ cfg1 readRoi roi, roiStep w a cfg col row = .ok (cfg1, readRoi, roi) := by
  unfold roiStep
  cases hv : cfg.get "ROI" with
  | none => exact ⟨_, _, _, rfl⟩
  | some v =>
    obtain ⟨dc, dr, h1, h2, h3⟩ := hd (by rw [hv]; simp)
    obtain ⟨x, y, z, t, hx⟩ := roiOk_is (hroi v hv)
    have ho : ∃ f, v = .obj f := by
      obtain ⟨f, -, -, -, -, -, -, e, -⟩ := hx
      exact ⟨f, e⟩
    obtain ⟨f, rfl⟩ := ho
    have hg : ∃ o, getRoiProcessing ⟨z, t, x, y, w.globalMargins a.cumulative a.nonCumulative⟩ dc dr = .ok o := by
      unfold getRoiProcessing
      rcases h3 with ⟨i, j, e1, e2⟩ | ⟨i, j, e1, e2⟩ <;> rw [e1, e2] <;> exact ⟨_, rfl⟩
    obtain ⟨o, ho⟩ := hg
    simp only [asRoi_of hx, h1, h2, ho, bind, Except.bind, asObj, pure, Except.pure]
    exact ⟨_, _, _, rfl⟩

/-! ## The images -/

/-- The disparities of an accepted input section without estimation are read, both are constants or grids. -/
theorem input_disps {env : Config.Env} {files : Datasets.Files K} {user cfg inp : Fields} {col row : J}
    (h : checkInputSection env user false = .ok cfg)
    (hin : cfg.get "input" = some (.obj inp)) (hc : inp.get "col_disparity" = some col) (hr : inp.get "row_disparity" = some row) :
    ∃ dc dr, Datasets.dispOf files col = .ok dc ∧ Datasets.dispOf files row = .ok dr ∧ SameInit dc dr := by
  obtain ⟨inp2, q1, q2, q3⟩ := input_ok env user cfg false h
  rw [hin, Option.some.injEq, J.obj.injEq] at q1
  subst q1
  obtain ⟨size, q4, q5⟩ := q3 rfl
  obtain ⟨row', col', rI, cI, a1, a2, a3, a4, hk⟩ := checkDisparity_ok env size inp q5
  obtain ⟨f, i, r, n, b1, b2, b3, b4, b5, b6⟩ := schema_disp env inp q2 "col_disparity" (Or.inl rfl)
  obtain ⟨f', i', r', n', c1, c2, c3, c4, c5, c6⟩ := schema_disp env inp q2 "row_disparity" (Or.inr rfl)
  rw [a2, Option.some.injEq, J.obj.injEq] at b1
  rw [a1, Option.some.injEq, J.obj.injEq] at c1
  subst b1 c1
  rw [a2, Option.some.injEq] at hc
  rw [a1, Option.some.injEq] at hr
  subst hc hr
  obtain ⟨p1, p2⟩ := dispOf_of (files := files) a3 c4 (isInt_true c5)
  obtain ⟨p3, p4⟩ := dispOf_of (files := files) a4 b4 (isInt_true b5)
  rcases hk with ⟨s, t, rfl, rfl⟩ | ⟨x, y, hx, hy⟩
  · exact ⟨_, _, p4 t rfl, p2 s rfl, Or.inr ⟨_, _, rfl, rfl⟩⟩
  · exact ⟨_, _, p3 y hy, p1 x hx, Or.inl ⟨_, _, rfl, rfl⟩⟩

/-- The user gives an integer as initial disparity, or nothing. -/
def GivesInt (uf : Fields) (key : String) : Prop :=
  uf.get key = none ∨ ∃ f, uf.get key = some (.obj f) ∧ (f.get "init" = none ∨ ∃ i a, f.get "init" = some i ∧ IsInt true i a)

/-- The user gives the file of a grid as initial disparity. -/
def GivesGrid (uf : Fields) (key : String) : Prop :=
  ∃ f s, uf.get key = some (.obj f) ∧ f.get "init" = some (.str s) ∧ s ∉ ["NaN", "inf", "-inf"]

/-- With an estimation, the initial disparity is the one of the user when it is given, otherwise the one of the default section. -/
theorem default_key {env : Config.Env} {user cfg inp uf : Fields} (hw : user.wf)
    (h : checkInputSection env user true = .ok cfg) (hu : user.get "input" = some (.obj uf)) (hin : cfg.get "input" = some (.obj inp))
    {k : String} (hk : k = "col_disparity" ∨ k = "row_disparity") :
    ∃ f i r n, inp.get k = some (.obj f) ∧ f.get "init" = some i ∧ f.get "range" = some r ∧ IsInt env.boolIsInt r n ∧
      (∀ fu j, uf.get k = some (.obj fu) → fu.get "init" = some j → j.isLeaf = true → conv j = j → i = j) ∧
      (uf.get k = none ∨ (∃ fu, uf.get k = some (.obj fu) ∧ fu.get "init" = none) → i = .int (-9997)) := by
  obtain ⟨inp2, i1, hsch, -⟩ := input_ok env user cfg true h
  rw [hin, Option.some.injEq, J.obj.injEq] at i1
  subst i1
  obtain ⟨c, c1, c2, -, -⟩ := checkInputSection_ok h
  simp only [if_true] at c2
  have hcw : c.wf := updateConf_wf _ _ _ hw (by simp [defaultInput, Fields.wf, J.wf, Fields.keys]) c1
  have hci : ∃ cf, c.get "input" = some (.obj cf) := by
    obtain ⟨v', h1, h2⟩ := (updateConf_get user defaultInput c (Fields.wf_keys user hw) c1 "input").2 _ hu
    simp only [defaultInput, Fields.get, if_true] at h1
    obtain ⟨g, e, -⟩ := updateVal_obj h1
    exact ⟨g, by rw [h2, e]⟩
  obtain ⟨cf, hcf⟩ := hci
  obtain ⟨uf', u1, -, u3⟩ := input_section_get hw c1 hcf (by rw [hu]; rfl)
  rw [hu, Option.some.injEq, J.obj.injEq] at u1
  subst u1
  obtain ⟨v', h1, h2⟩ := (updateConf_get c defaultDisp cfg (Fields.wf_keys c hcw) c2 "input").2 _ hcf
  rw [hin, Option.some.injEq] at h2
  subst h2
  simp only [defaultDisp, Fields.get, if_true] at h1
  obtain ⟨g, e, hg⟩ := updateVal_obj h1
  rw [J.obj.injEq] at e
  subst e
  have cfw : cf.wf := Fields.wf_get c hcw hcf
  obtain ⟨f, i, r, n, b1, -, b3, b4, b5, -⟩ := schema_disp env inp hsch k hk
  refine ⟨f, i, r, n, b1, b3, b4, b5, ?_⟩
  have hd : ∀ F : Fields, F = (Fields.cons "col_disparity" (.obj (.cons "init" (.int (-9997)) (.cons "range" (.int 2) .nil)))
      (.cons "row_disparity" (.obj (.cons "init" (.int (-9997)) (.cons "range" (.int 2) .nil))) .nil)) →
      F.get k = some (.obj (.cons "init" (.int (-9997)) (.cons "range" (.int 2) .nil))) := by
    rintro F rfl
    rcases hk with rfl | rfl <;> simp [Fields.get]
  have hk1 : k ≠ "left" := by rcases hk with rfl | rfl <;> decide
  have hk2 : k ≠ "right" := by rcases hk with rfl | rfl <;> decide
  have hget := updateConf_get cf _ inp (Fields.wf_keys _ cfw) hg k
  rw [hd _ rfl] at hget
  -- the section merged with the one of the user
  have merged : ∀ fu, uf.get k = some (.obj fu) → fu.convAll.keys.Nodup ∧
      updateConf (.cons "init" (.int (-9997)) (.cons "range" (.int 2) .nil)) fu.convAll = .ok f := by
    intro fu hfu
    have n1 : cf.get k = some (.obj fu.convAll) := by rw [u3 _ hk1 hk2, hfu]; rfl
    obtain ⟨w', w1, w2⟩ := hget.2 _ n1
    rw [b1, Option.some.injEq] at w2
    subst w2
    obtain ⟨g', e, hg'⟩ := updateVal_obj w1
    rw [J.obj.injEq] at e
    subst e
    exact ⟨Fields.wf_keys _ (Fields.wf_get cf cfw n1), hg'⟩
  constructor
  · intro fu j hfu hj hl1 hl2
    obtain ⟨fw, hg'⟩ := merged fu hfu
    have n2 : fu.convAll.get "init" = some j := by
      rw [Fields.get_convAll, hj, Option.map_some, convAll_leaf hl1, hl2]
    rw [merged_leaf fw hg' n2 hl1, hl2, Option.some.injEq] at b3
    exact b3.symm
  · rintro (hgi | ⟨fu, hfu, hi⟩)
    · have n1 : cf.get k = none := by rw [u3 _ hk1 hk2, hgi]; rfl
      rw [hget.1 n1, Option.some.injEq, J.obj.injEq] at b1
      subst b1
      simp only [Fields.get, if_true, Option.some.injEq] at b3
      exact b3.symm
    · obtain ⟨fw, hg'⟩ := merged fu hfu
      have n2 : fu.convAll.get "init" = none := by rw [Fields.get_convAll, hi]; rfl
      rw [(updateConf_get _ _ _ fw hg' "init").1 n2] at b3
      simp only [Fields.get, if_true, Option.some.injEq] at b3
      exact b3.symm

/-- With an estimation, a user who gives integers or nothing gets constants, a user who gives two grids gets grids. -/
theorem default_disps {env : Config.Env} {files : Datasets.Files K} {user cfg inp uf : Fields} {col row : J} (hw : user.wf)
    (h : checkInputSection env user true = .ok cfg) (hu : user.get "input" = some (.obj uf))
    (hn : (GivesInt uf "col_disparity" ∧ GivesInt uf "row_disparity") ∨ (GivesGrid uf "col_disparity" ∧ GivesGrid uf "row_disparity"))
    (hin : cfg.get "input" = some (.obj inp))
    (hc : inp.get "col_disparity" = some col) (hr : inp.get "row_disparity" = some row) :
    ∃ dc dr, Datasets.dispOf files col = .ok dc ∧ Datasets.dispOf files row = .ok dr ∧ SameInit dc dr := by
  have int : ∀ k v, k = "col_disparity" ∨ k = "row_disparity" → GivesInt uf k → inp.get k = some v →
      ∃ a n, Datasets.dispOf files v = .ok ⟨.const a, n⟩ := by
    intro k v hk hgi hv
    obtain ⟨f, i, r, n, b1, b2, b3, b4, b5, b6⟩ := default_key hw h hu hin hk
    rw [b1, Option.some.injEq] at hv
    subst hv
    rcases hgi with hgi | ⟨fu, hfu, hi | ⟨j, a, hj, ha⟩⟩
    · exact ⟨_, n, (dispOf_of b2 b3 (isInt_true b4)).1 (-9997) (Or.inl (b6 (Or.inl hgi)))⟩
    · exact ⟨_, n, (dispOf_of b2 b3 (isInt_true b4)).1 (-9997) (Or.inl (b6 (Or.inr ⟨fu, hfu, hi⟩)))⟩
    · have hl := isInt_leaf ha
      rw [b5 fu j hfu hj hl.1 hl.2] at b2
      exact ⟨a, n, (dispOf_of b2 b3 (isInt_true b4)).1 a ha⟩
  have grid : ∀ k v, k = "col_disparity" ∨ k = "row_disparity" → GivesGrid uf k → inp.get k = some v →
      ∃ g n, Datasets.dispOf files v = .ok ⟨.grid g, n⟩ := by
    intro k v hk ⟨fu, s, hfu, hj, hs⟩ hv
    obtain ⟨f, i, r, n, b1, b2, b3, b4, b5, -⟩ := default_key hw h hu hin hk
    rw [b1, Option.some.injEq] at hv
    subst hv
    have := b5 fu (.str s) hfu hj rfl (by
      simp only [List.mem_cons, List.not_mem_nil, or_false, not_or] at hs
      simp [conv, hs])
    exact ⟨_, n, (dispOf_of b2 b3 (isInt_true b4)).2 s this⟩
  rcases hn with hn | hn
  · obtain ⟨a, n, ha⟩ := int _ _ (Or.inl rfl) hn.1 hc
    obtain ⟨b, n', hb⟩ := int _ _ (Or.inr rfl) hn.2 hr
    exact ⟨_, _, ha, hb, Or.inl ⟨_, _, rfl, rfl⟩⟩
  · obtain ⟨a, n, ha⟩ := grid _ _ (Or.inl rfl) hn.1 hc
    obtain ⟨b, n', hb⟩ := grid _ _ (Or.inr rfl) hn.2 hr
    exact ⟨_, _, ha, hb, Or.inr ⟨_, _, rfl, rfl⟩⟩

end Verif.Props
