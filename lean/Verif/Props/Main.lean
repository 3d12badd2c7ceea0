import Verif.Props.MainVolume

/-!
# C78, C79: from the configuration of the user to the files
-/

namespace Verif.Props

open Verif Verif.Config Verif.Machine Verif.ImgTools Verif.MatchingCost Verif.Disparity Verif.Estimation Verif.Run Verif.Main Verif.Spec
  Verif.Save Verif.Statistics

set_option linter.unusedSectionVars false

variable {K : Type} [Field K] [LinearOrder K] [IsStrictOrderedRing K] [FloorRing K]

/-! ## What is asked is unique -/

theorem StepIs.unique {mc : Fields} {a b a' b' : Nat} (h : StepIs mc a b) (h' : StepIs mc a' b') : a = a' ∧ b = b' := by
  rcases h with ⟨x, y, e, h1, h2⟩ | ⟨e, rfl, rfl⟩ <;> rcases h' with ⟨x', y', e', h1', h2'⟩ | ⟨e', rfl, rfl⟩
  · rw [e, Option.some.injEq] at e'
    simp only [J.arr.injEq, Js.cons.injEq, and_true] at e'
    obtain ⟨rfl, rfl⟩ := e'
    exact ⟨by exact_mod_cast IsInt.unique h1 h1', by exact_mod_cast IsInt.unique h2 h2'⟩
  · rw [e] at e'; simp at e'
  · rw [e] at e'; simp at e'
  · exact ⟨rfl, rfl⟩

theorem InvalidIs.unique {d : Fields} {x y : F K} (h : InvalidIs d x) (h' : InvalidIs d y) : x = y := by
  rcases h with ⟨v, e, h⟩ | ⟨e, rfl⟩ <;> rcases h' with ⟨v', e', h'⟩ | ⟨e', rfl⟩
  · rw [e, Option.some.injEq] at e'
    subst e'
    exact NumberIs.unique h h'
  · rw [e] at e'; simp at e'
  · rw [e] at e'; simp at e'
  · rfl

/-- The disparity of the checked section is that of the user. -/
theorem isDisp_checked {files : Datasets.Files K} {uf cf : Fields} {key : String} {d d' : Disp} (hw : uf.wf)
    (hk : cf.get key = (uf.get key).map J.convAll) (hu : IsDisp files uf key d) (hc : IsDisp files cf key d') : d = d' := by
  obtain ⟨f, i, r, e1, e2, e3, e4, e5⟩ := hu
  obtain ⟨g, i', r', e1', e2', e3', e4', e5'⟩ := hc
  rw [hk, e1, Option.map_some, Option.some.injEq, J.convAll, J.obj.injEq] at e1'
  subst e1'
  rw [Fields.get_convAll, e2, Option.map_some, Option.some.injEq] at e2'
  rw [Fields.get_convAll, e3, Option.map_some, Option.some.injEq] at e3'
  subst e2' e3'
  have hr : d.range = d'.range := IsInt.unique (isInt_convAll.2 e4) e4'
  have hi : d.init = d'.init := by
    rcases e5 with ⟨n, hn, e⟩ | ⟨s, rfl, e⟩ <;> rcases e5' with ⟨n', hn', e'⟩ | ⟨s', hs', e'⟩
    · rw [e, e', IsInt.unique (isInt_convAll.2 hn) hn']
    · exfalso
      obtain rfl := convAll_eq_str hs'
      rcases hn with h | ⟨-, ⟨h, -⟩ | ⟨h, -⟩⟩ <;> simp at h
    · exfalso
      rw [isInt_convAll] at hn'
      rcases hn' with h | ⟨-, ⟨h, -⟩ | ⟨h, -⟩⟩ <;> simp at h
    · have := convAll_eq_str hs'
      simp only [J.str.injEq] at this
      subst this
      rw [e, e']
  cases d; cases d'
  simp_all

theorem ZoneIs.unique_roi {user v : Fields} {H W : Nat} {a b c d a' b' c' d' : Int} {x : J} (h : ZoneIs user H W a b c d)
    (hx : user.get "ROI" = some x) (h' : RoiIs x a' b' c' d') : a = a' ∧ b = b' ∧ c = c' ∧ d = d' := by
  rcases h with ⟨y, hy, h⟩ | ⟨hy, -⟩
  · rw [hx, Option.some.injEq] at hy
    subst hy
    exact RoiIs.unique h h'
  · rw [hx] at hy; simp at hy

section
variable {w : World K} {user p0 : Fields} {out : List (Written K)} {H W : Nat} {rf rl cf cl : Int}

theorem Stages.zone (s : Stages w user p0 out) (hdisk : DiskContract w H W) (hz : ZoneIs user H W rf rl cf cl) (hl : rl < H ∧ cl < W) :
    RoiInside s.roi H W ∧ ZoneOk s.left.img s.roi H W rf rl cf cl := by
  have hf := s.roiFor
  have hin : RoiInside s.roi H W := by
    intro R hR
    rw [hR] at hf
    obtain ⟨v, hv, hv', -⟩ := hf
    obtain ⟨rfl, rfl, rfl, rfl⟩ := ZoneIs.unique_roi (v := .nil) hz hv hv'
    exact hl
  refine ⟨hin, ?_⟩
  obtain ⟨-, -, -, -, hc⟩ := s.image hdisk hin
  cases hr : s.roi with
  | none =>
    rw [hr] at hf
    rcases hz with ⟨v, hv, -⟩ | ⟨-, rfl, rfl, rfl, rfl⟩
    · rw [show user.get "ROI" = none from hf] at hv; simp at hv
    · obtain ⟨-, -, l, r, -, -, h3, -⟩ := created_input s.datasets
      rw [hr] at h3
      obtain ⟨a1, a2, a3, a4⟩ := hdisk.whole l _ h3
      exact ⟨a1, a2, a3, a4, rfl, rfl, rfl, rfl⟩
  | some R =>
    rw [hr] at hf
    obtain ⟨v, hv, hv', -⟩ := hf
    obtain ⟨rfl, rfl, rfl, rfl⟩ := ZoneIs.unique_roi (v := .nil) hz hv hv'
    exact ⟨hc R hr, rfl, rfl, rfl, rfl⟩

/-- The files of a successful `main` without refinement. -/
theorem Stages.inRange (s : Stages w user p0 out) (hdisk : DiskContract w H W) (hw : user.wf)
    (hu : user.get "pipeline" = some (.obj p0)) (hz : ZoneIs user H W rf rl cf cl) (hl : rl < H ∧ cl < W)
    (href : p0.get "refinement" = none) :
    ∃ dRow dCol : Disp,
      (∃ i3, s.cfg3.get "input" = some (.obj i3) ∧ IsDisp w.files i3 "row_disparity" dRow ∧ IsDisp w.files i3 "col_disparity" dCol) ∧
      (p0.get "estimation" = none → IsDisp w.files s.inp "row_disparity" dRow ∧ IsDisp w.files s.inp "col_disparity" dCol) ∧
      (∀ rr rc sf, s.plan.estimation = some (rr, rc, sf) → ∃ a b, w.run.correlation s.left.img s.right.img sf = (.fin a, .fin b) ∧
        dRow = ⟨.const (pyRound (-a)), rr⟩ ∧ dCol = ⟨.const (pyRound (-b)), rc⟩) ∧
      (∀ f ∈ [s.files.row, s.files.col, s.files.score],
        ZoneFile f (w.transform s.leftJ) rf rl cf cl s.plan.cfg.stepRow s.plan.cfg.stepCol) ∧
      ∀ i < s.files.row.h, ∀ j < s.files.row.w, InOwnRange s.files s.plan.invalid dRow dCol i j
        (rf + (i : Int) * s.plan.cfg.stepRow) (cf + (j : Int) * s.plan.cfg.stepCol) := by
  obtain ⟨hin, hzone⟩ := s.zone hdisk hz hl
  obtain ⟨dRow, dCol, L, cv, o, m, e1, e2, e3, e4, e5, e6, hp, r2, r3, r4, hmaps, e7, e8, e9⟩ := s.volumes hdisk hin hw hu
  obtain ⟨b1, b2, b3, b4⟩ := s.reads.steps
  rw [s.reads.noRefinement href] at r4
  simp only [List.map_nil, refinedAll, Except.ok.injEq] at r4
  subst r4
  have hsave := s.saved
  rw [hmaps] at hsave
  simp only at hsave
  obtain ⟨files, after, q1, q2, q3⟩ := saved_zone hp b3 b1 b2 (by rw [e2]; exact hzone) r2 o.row.get o.col.get o.score.get
    (w.crs s.leftJ) (w.transform s.leftJ)
  rw [q1, Except.ok.injEq, Prod.mk.injEq] at hsave
  obtain ⟨hfile, -⟩ := hsave
  rw [← hfile]
  refine ⟨dRow, dCol, e7, e8, e9, fun f hf => ?_, fun i hi j hj => ?_⟩
  · obtain ⟨-, f1, f2, f3, f4⟩ := q2 f hf
    exact ⟨f1, f2, f3, f4⟩
  · obtain ⟨r', hr', c', hc', g1, g2, g3, g4, g5⟩ := q3 i hi j hj
    rcases C09_configured_range dRow dCol e1.1 e1.2 hp.hpos hp.wpos hp.sameH hp.sameW e3 e4 e5 e6 b4 b3 b1 b2 r2 r3 ⟨hr', hc'⟩ with
      h | ⟨dr, dc, h1, h2, h3, h4⟩
    · left; rw [g3, g4, g5]; exact h
    · right
      rw [g1, g2] at h3 h4
      exact ⟨dr, dc, by rw [g3]; exact h1, by rw [g4]; exact h2, h3, h4⟩

/-- The path of the left image is kept by the checks. -/
theorem Stages.leftPath (s : Stages w user p0 out) (hw : user.wf) {tr : Option (Affine K)} (ht : LeftTransform w user tr) :
    w.transform s.leftJ = tr := by
  obtain ⟨inp, l, p, h1, h2, h3, h4⟩ := ht
  have h0 := C37_input_values_partial w.env (getConfigInput user) s.cin _ (getConfigInput_wf hw) s.input ["input", "left", "img"] (.str p)
    (by simp [J.at, getConfigInput_get, h1, h2, h3]) rfl
  simp only [J.at, s.inputIs, Option.bind_some, s.leftIs] at h0
  cases hl : s.leftJ with
  | obj g =>
    rw [hl] at h0
    refine h4 g ?_
    cases hg : g.get "img" with
    | none => simp [J.at, hg] at h0
    | some v => simpa [J.at, hg] using h0
  | _ => rw [hl] at h0; simp [J.at] at h0

/-- C78: for every successful execution without estimation nor refinement, every ROI inside the image or none, every steps, every kind of
initial disparities and every history of the disk: the first thing written is the three rasters; each one holds exactly the points of the
zone asked by the user, one out of `step` rows and columns, with the transform of the left image moved to them; and each pixel is the
invalid value asked by the user in the three rasters, or its disparities are in the intervals asked by the user for that pixel. -/
theorem C78_files_answer_user (w : World K) (user p0 : Fields) (out : List (Written K)) (H W : Nat) (dRow dCol : Disp)
    (rf rl cf cl : Int) (sr sc : Nat) (invalid : F K) (tr : Option (Affine K)) (hw : user.wf) (hdisk : DiskContract w H W)
    (hpan : PandoraContract w) (hu : user.get "pipeline" = some (.obj p0)) (he : p0.get "estimation" = none)
    (href : p0.get "refinement" = none) (ask : Asks w user H W dRow dCol rf rl cf cl sr sc invalid) (hl : rl < H ∧ cl < W)
    (ht : LeftTransform w user tr) (h : Main.main w user = (out, none)) :
    ∃ files rest, out = .rasters files :: rest ∧
      (∀ f ∈ [files.row, files.col, files.score], ZoneFile f tr rf rl cf cl sr sc) ∧
      ∀ i < files.row.h, ∀ j < files.row.w,
        InOwnRange files invalid dRow dCol i j (rf + (i : Int) * sr) (cf + (j : Int) * sc) := by
  obtain ⟨pl, mc, disp, a1, a2, a3, a4, a5⟩ := ask.steps
  rw [hu, Option.some.injEq, J.obj.injEq] at a1
  subst a1
  have hd : "disparity" ∈ p0.keys := (Fields.get_isSome p0 _).1 (by rw [a3]; rfl)
  obtain ⟨s⟩ := main_stages w user p0 out hw hpan hu hd h
  obtain ⟨dRow', dCol', -, i1, -, i2, i3⟩ := s.inRange hdisk hw hu ask.zone hl href
  obtain ⟨j1, j2⟩ := i1 he
  -- what was asked
  obtain ⟨mc', m1, m2⟩ := s.reads.matching
  rw [a2, Option.some.injEq, J.obj.injEq] at m1
  subst m1
  obtain ⟨rfl, rfl⟩ := StepIs.unique a4 m2
  obtain ⟨disp', n1, n2⟩ := s.reads.disparity
  rw [a3, Option.some.injEq, J.obj.injEq] at n1
  subst n1
  obtain rfl := InvalidIs.unique a5 n2
  obtain ⟨inp, b1, b2, b3⟩ := ask.disparities
  have hge : givesEstimation p0 = false := by unfold givesEstimation; rw [he]
  have hin := s.input
  rw [hge] at hin
  obtain ⟨c, c1, c2, -, -⟩ := checkInputSection_ok hin
  simp only [Bool.false_eq_true, if_false] at c2
  subst c2
  obtain ⟨uf, u1, u2, u3⟩ := input_section_get (getConfigInput_wf hw) c1 s.inputIs (by rw [getConfigInput_get, b1]; rfl)
  rw [getConfigInput_get, b1, Option.some.injEq, J.obj.injEq] at u1
  subst u1
  obtain rfl := isDisp_checked u2 (u3 _ (by decide) (by decide)) b2 j1
  obtain rfl := isDisp_checked u2 (u3 _ (by decide) (by decide)) b3 j2
  rw [s.leftPath hw ht] at i2
  exact ⟨s.files, _, s.outIs, i2, i3⟩

/-- C79: for every successful execution without refinement, with an estimation or not: the saved configuration has disparities, each pixel of
the rasters is invalid in the three rasters or its disparities are in the intervals of the saved configuration for that pixel; with an
estimation the ranges of the saved configuration are those asked in its section. -/
theorem C79_saved_configuration (w : World K) (user p0 : Fields) (out : List (Written K)) (H W : Nat)
    (rf rl cf cl : Int) (hw : user.wf) (hdisk : DiskContract w H W)
    (hpan : PandoraContract w) (hu : user.get "pipeline" = some (.obj p0)) (hd : "disparity" ∈ p0.keys)
    (href : p0.get "refinement" = none) (hz : ZoneIs user H W rf rl cf cl) (hl : rl < H ∧ cl < W)
    (h : Main.main w user = (out, none)) :
    ∃ files row col saved rest inp dRow dCol mc disp sr sc invalid,
      out = .rasters files :: .report row col :: .config saved :: rest ∧ saved.get "input" = some (.obj inp) ∧
      IsDisp w.files inp "row_disparity" dRow ∧ IsDisp w.files inp "col_disparity" dCol ∧
      p0.get "matching_cost" = some (.obj mc) ∧ StepIs mc sr sc ∧ p0.get "disparity" = some (.obj disp) ∧ InvalidIs disp invalid ∧
      (∀ i < files.row.h, ∀ j < files.row.w,
        InOwnRange files invalid dRow dCol i j (rf + (i : Int) * sr) (cf + (j : Int) * sc)) ∧
      ∀ v, p0.get "estimation" = some v → ∃ est, v = .obj est ∧ RangeIs est "range_row" dRow.range ∧
        RangeIs est "range_col" dCol.range := by
  obtain ⟨s⟩ := main_stages w user p0 out hw hpan hu hd h
  obtain ⟨dRow, dCol, ⟨i3, k1, k2, k3⟩, -, k5, -, k4⟩ := s.inRange hdisk hw hu hz hl href
  obtain ⟨mc, m1, m2⟩ := s.reads.matching
  obtain ⟨disp, n1, n2⟩ := s.reads.disparity
  refine ⟨s.files, _, _, s.cfg3.set "margins" (w.marginsDict s.m.data.cumulative s.m.data.nonCumulative), _, i3, dRow, dCol, mc, disp, _, _, _,
    s.outIs, ?_, k2, k3, m1, m2, n1, n2, k4, fun v hv => ?_⟩
  · rw [Fields.get_set, if_neg (by decide)]; exact k1
  · obtain ⟨-, -, -, -, hg⟩ := pipeline_new w.steps user p0 s.pl s.m hw hu s.pipeline
    obtain ⟨c, v', g1, -, g2, g3⟩ := hg _ _ hv
    cases he : s.plan.estimation with
    | none => rw [s.reads.estimation.2 he] at hv; simp at hv
    | some x =>
      obtain ⟨rr, rc, sf⟩ := x
      obtain ⟨v2, e1, e2⟩ := s.reads.estimated rr rc sf he
      rw [g3, Option.some.injEq] at e1
      subst e1
      obtain ⟨f, rfl, f1, f2⟩ := est_section (Fields.wf_get p0 (Fields.wf_get user hw hu) hv) g1 g2 e2
      obtain ⟨a, b, -, rfl, rfl⟩ := k5 rr rc sf he
      exact ⟨f, rfl, f1, f2⟩

end

end Verif.Props
