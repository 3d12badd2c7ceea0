import Verif.Props.MainStages

/-!
# The volumes and the maps of a successful `main`
-/

namespace Verif.Props

open Verif Verif.Config Verif.Machine Verif.ImgTools Verif.MatchingCost Verif.Disparity Verif.Estimation Verif.Run Verif.Main Verif.Spec
  Verif.Save Verif.Statistics

set_option linter.unusedSectionVars false

variable {K : Type} [Field K] [LinearOrder K] [IsStrictOrderedRing K] [FloorRing K]

/-- A range which is computed on an image inside the image of the grids: the grid covers the image. -/
theorem covers_of {d : Disp} {row0 col0 : Int} {h w H W : Nat} {b : Bool} {g : MinMax} (hg : getMinMax row0 col0 h w d b = .ok g)
    (h1 : 0 ≤ row0 ∧ row0 + h ≤ H) (h2 : 0 ≤ col0 ∧ col0 + w ≤ W) (hd : ∀ x, d.init = .grid x → x.h = H ∧ x.w = W) :
    Covers d row0 col0 h w := by
  unfold Covers
  unfold getMinMax at hg
  cases hi : d.init with
  | const i => trivial
  | grid x =>
    obtain ⟨e1, e2⟩ := hd x hi
    rw [hi] at hg
    simp only at hg ⊢
    split_ifs at hg with q1 q2 q3
    refine ⟨h1.1, by omega, h2.1, by omega, ?_, ?_⟩ <;> omega

/-- The ranges of an accepted estimation. -/
theorem buildEstimation_ranges {w : World K} {v : J} {rr rc : Int} {sf : Nat} (h : buildEstimation w v = .ok (.estimation rr rc sf)) :
    ∃ f c d e, v = .obj f ∧ estimationCheck w.env.boolIsInt (.obj f) = .ok (.obj (fillEstimation f)) ∧
      (fillEstimation f).get "range_row" = some c ∧ (fillEstimation f).get "range_col" = some d ∧
      (fillEstimation f).get "sample_factor" = some e ∧ IsInt true c rr ∧ IsInt true d rc ∧ IsInt true e sf ∧
      3 ≤ rr ∧ 3 ≤ rc := by
  unfold buildEstimation at h
  obtain ⟨c, h1, h⟩ := bind_eq_ok h
  obtain ⟨f, h2, h⟩ := bind_eq_ok h
  obtain ⟨a, h3, h⟩ := bind_eq_ok h
  obtain ⟨x, h4, h⟩ := bind_eq_ok h
  obtain ⟨b, h5, h⟩ := bind_eq_ok h
  obtain ⟨y, h6, h⟩ := bind_eq_ok h
  obtain ⟨c', h7, h⟩ := bind_eq_ok h
  obtain ⟨z, h8, h⟩ := bind_eq_ok h
  simp only [pure, Except.pure, Except.ok.injEq, StepCfg.estimation.injEq] at h
  obtain ⟨rfl, rfl, rfl⟩ := h
  rw [asObj_iff] at h2
  subst h2
  rw [asInt_iff] at h4 h6
  rw [asNat_iff] at h8
  have h3 := item_ok h3
  have h5 := item_ok h5
  have h7 := item_ok h7
  cases v with
  | obj g =>
    have h1' := h1
    simp only [estimationCheck] at h1'
    split at h1'
    · simp at h1'
    · split_ifs at h1' with q1 q2
      simp only [Except.ok.injEq, J.obj.injEq] at h1'
      subst h1'
      refine ⟨g, a, b, c', rfl, h1, h3, h5, h7, h4, h6, h8, ?_, ?_⟩
      · obtain ⟨v, i, e1, e2, e3, -⟩ := estimation_range _ _ _ h1 "range_row" (Or.inl rfl)
        rw [h3, Option.some.injEq] at e1
        subst e1
        rw [IsInt.unique h4 (isInt_true e2)]
        exact e3
      · obtain ⟨v, i, e1, e2, e3, -⟩ := estimation_range _ _ _ h1 "range_col" (Or.inr rfl)
        rw [h5, Option.some.injEq] at e1
        subst e1
        rw [IsInt.unique h6 (isInt_true e2)]
        exact e3
    · simp at h1'
  | _ => simp [estimationCheck] at h1

theorem fillEstimation_keeps {f : Fields} {k : String} {v : J} (h : f.get k = some v) : (fillEstimation f).get k = some v :=
  setDefault_keeps _ _ (setDefault_keeps _ _ (setDefault_keeps _ _ h))

/-- The ranges of the estimation section which the run reads. -/
theorem est_section {w : World K} {v c v' : J} {rr rc : Int} {sf : Nat} (hw : v.wf)
    (hc : Checked w.steps "estimation" v.convAll c) (hu : updateVal (some v.convAll) c = .ok v')
    (hb : buildEstimation w v' = .ok (.estimation rr rc sf)) :
    ∃ f, v = .obj f ∧ RangeIs f "range_row" rr ∧ RangeIs f "range_col" rc := by
  simp only [Checked, String.reduceEq, false_and, true_and, false_or, or_false] at hc
  have hc' : estimationCheck w.env.boolIsInt v.convAll = .ok c := by
    simpa only [World.steps, stepsOf] using hc
  have inv : ∃ f, v.convAll = .obj f ∧ c = .obj (fillEstimation f) := by
    cases hv : v.convAll with
    | obj f =>
      rw [hv] at hc'
      simp only [estimationCheck] at hc'
      split at hc'
      · simp at hc'
      · split_ifs at hc'
        exact ⟨f, rfl, (Except.ok.inj hc').symm⟩
      · simp at hc'
    | _ => rw [hv] at hc'; simp [estimationCheck] at hc'
  obtain ⟨fc, h1, rfl⟩ := inv
  rw [h1] at hc'
  obtain ⟨f, rfl, rfl⟩ := convAll_eq_obj h1
  obtain ⟨g', rfl, hg'⟩ := updateVal_obj hu
  obtain ⟨g2, a, b, c, e, -, ha, hb', -, ia, ib, -, -, -⟩ := buildEstimation_ranges hb
  simp only [J.obj.injEq] at e
  subst e
  have hnod : (fillEstimation f.convAll).keys.Nodup := by
    unfold fillEstimation
    have : f.convAll.keys.Nodup := by rw [Fields.keys_convAll]; exact Fields.wf_keys f hw
    exact Fields.keys_setDefault_nodup _ _ _ (Fields.keys_setDefault_nodup _ _ _ (Fields.keys_setDefault_nodup _ _ _ this))
  have key : ∀ {k : String} {x : J} {n : Int}, (k = "range_row" ∨ k = "range_col") → (fillEstimation g').get k = some x →
      IsInt true x n → RangeIs f k n := by
    intro k x n hk hx hn
    obtain ⟨y, i, y1, y2, -, -⟩ := estimation_range _ _ _ hc' k hk
    have y2 := isInt_true y2
    have hl : conv y = y ∧ y.isLeaf = true := by
      rcases y2 with rfl | ⟨-, ⟨rfl, -⟩ | ⟨rfl, -⟩⟩ <;> exact ⟨rfl, rfl⟩
    have hgy : g'.get k = some y := by rw [merged_leaf hnod hg' y1 hl.2, hl.1]
    rw [fillEstimation_keeps hgy, Option.some.injEq] at hx
    subst hx
    cases hf : f.get k with
    | none =>
      have hf' : f.convAll.get k = none := by rw [Fields.get_convAll, hf]; rfl
      right
      refine ⟨hf, ?_⟩
      have : y = .int 5 := by
        rcases hk with rfl | rfl <;> simp [fillEstimation, Fields.get_setDefault, hf'] at y1 <;> exact y1.symm
      subst this
      exact IsInt.unique hn (Or.inl rfl)
    | some u =>
      have hf' : f.convAll.get k = some u.convAll := by rw [Fields.get_convAll, hf]; rfl
      left
      refine ⟨u, hf, ?_⟩
      rw [fillEstimation_keeps hf', Option.some.injEq] at y1
      rw [← y1] at hn
      exact isInt_convAll.1 hn
  exact ⟨f, rfl, key (Or.inl rfl) ha ia, key (Or.inr rfl) hb' ib⟩

/-- The ROI of a run is inside the image. -/
def RoiInside (roi : Option Roi) (H W : Nat) : Prop := ∀ R, roi = some R → R.rowLast < H ∧ R.colLast < W

section
variable {w : World K} {user p0 : Fields} {out : List (Written K)} {H W : Nat}

/-- The images of a successful `main` are the zone asked, inside the image of the disk. -/
theorem Stages.image (s : Stages w user p0 out) (hdisk : DiskContract w H W) (hin : RoiInside s.roi H W) :
    (0 < s.left.img.h ∧ 0 < s.left.img.w) ∧ (s.right.img.h = s.left.img.h ∧ s.right.img.w = s.left.img.w) ∧
    (0 ≤ s.left.img.row0 ∧ s.left.img.row0 + s.left.img.h ≤ H) ∧ (0 ≤ s.left.img.col0 ∧ s.left.img.col0 + s.left.img.w ≤ W) ∧
    ∀ R, s.roi = some R → CropOk s.left.img R H W := by
  obtain ⟨-, -, l, r, h1, h2, h3, h4⟩ := created_input s.datasets
  have hshape : s.left.img.h = s.right.img.h ∧ s.left.img.w = s.right.img.w := by
    have hd := s.checked
    unfold Datasets.checkDatasets at hd
    split at hd
    · simp at hd
    · split at hd
      · simp at hd
      · split_ifs at hd with hs
        simpa using hs
  obtain ⟨hH, hW⟩ := hdisk.pos
  cases hr : s.roi with
  | none =>
    rw [hr] at h3
    obtain ⟨a1, a2, a3, a4⟩ := hdisk.whole l _ h3
    refine ⟨by omega, by omega, by omega, by omega, fun R h => by simp at h⟩
  | some R =>
    have hf := s.roiFor
    rw [hr] at h3 hf
    obtain ⟨v, -, -, b1, b2⟩ := hf
    obtain ⟨i1, i2⟩ := hin R hr
    have hc := hdisk.crop l R _ h3 (by omega) (by omega) b2
    have c1 := hc.row0; have c2 := hc.col0; have c3 := hc.row1; have c4 := hc.col1
    refine ⟨⟨?_, ?_⟩, by omega, ⟨?_, ?_⟩, ⟨?_, ?_⟩, ?_⟩
    · omega
    · omega
    · omega
    · omega
    · omega
    · omega
    · intro R' h
      rw [Option.some.injEq] at h
      subst h
      exact hc

/-- The ranges, the volumes and the maps of a successful `main`. -/
theorem Stages.volumes (s : Stages w user p0 out) (hdisk : DiskContract w H W) (hin : RoiInside s.roi H W) (hw : user.wf)
    (hu : user.get "pipeline" = some (.obj p0)) :
    ∃ (dRow dCol : Disp) (L : Left K) (cv : CostVolumes K) (o : DispOut K) (m : Spec.Maps K),
      (0 ≤ dRow.range ∧ 0 ≤ dCol.range) ∧ L.img = s.left.img ∧
      Covers dRow L.img.row0 L.img.col0 L.img.h L.img.w ∧ Covers dCol L.img.row0 L.img.col0 L.img.h L.img.w ∧
      getMinMax L.img.row0 L.img.col0 L.img.h L.img.w dRow false = .ok L.rowDisp ∧
      getMinMax L.img.row0 L.img.col0 L.img.h L.img.w dCol false = .ok L.colDisp ∧
      PairOk L s.right.img ∧
      computeCostVolumes w.run.zoom s.plan.cost s.plan.cfg s.roi L s.right.img (refinementMargins s.m.data) = .ok cv ∧
      computeDispMaps s.plan.invalid cv = .ok o ∧
      refinedAll w.run s.plan L s.right.img cv (s.plan.refinements.map Prod.snd) ⟨o.row, o.col, o.score⟩ = .ok m ∧
      s.maps = ⟨cv.row, cv.col, m.row, m.col, m.score, s.plan.invalid⟩ ∧
      (∃ i3, s.cfg3.get "input" = some (.obj i3) ∧ IsDisp w.files i3 "row_disparity" dRow ∧ IsDisp w.files i3 "col_disparity" dCol) ∧
      (p0.get "estimation" = none → IsDisp w.files s.inp "row_disparity" dRow ∧ IsDisp w.files s.inp "col_disparity" dCol) ∧
      (∀ rr rc sf, s.plan.estimation = some (rr, rc, sf) → ∃ a b, w.run.correlation s.left.img s.right.img sf = (.fin a, .fin b) ∧
        dRow = ⟨.const (pyRound (-a)), rr⟩ ∧ dCol = ⟨.const (pyRound (-b)), rc⟩) := by
  obtain ⟨⟨p1, p2⟩, ⟨p3, p4⟩, z1, z2, -⟩ := s.image hdisk hin
  obtain ⟨-, hk, -, -, -⟩ := pipeline_new w.steps user p0 s.pl s.m hw hu s.pipeline
  have hrun := s.run
  unfold expectedMaps at hrun
  obtain ⟨L, r1, hrun⟩ := bind_eq_ok hrun
  obtain ⟨cv, r2, hrun⟩ := bind_eq_ok hrun
  obtain ⟨o, r3, hrun⟩ := bind_eq_ok hrun
  obtain ⟨m, r4, hrun⟩ := bind_eq_ok hrun
  simp only [pure, Except.pure, Except.ok.injEq] at hrun
  have hmaps := hrun.symm
  have core : ∃ (dRow dCol : Disp), (0 ≤ dRow.range ∧ 0 ≤ dCol.range) ∧ L.img = s.left.img ∧
      Covers dRow L.img.row0 L.img.col0 L.img.h L.img.w ∧ Covers dCol L.img.row0 L.img.col0 L.img.h L.img.w ∧
      getMinMax L.img.row0 L.img.col0 L.img.h L.img.w dRow false = .ok L.rowDisp ∧
      getMinMax L.img.row0 L.img.col0 L.img.h L.img.w dCol false = .ok L.colDisp ∧
      (∃ i3, s.cfg3.get "input" = some (.obj i3) ∧ IsDisp w.files i3 "row_disparity" dRow ∧ IsDisp w.files i3 "col_disparity" dCol) ∧
      (p0.get "estimation" = none → IsDisp w.files s.inp "row_disparity" dRow ∧ IsDisp w.files s.inp "col_disparity" dCol) ∧
      (∀ rr rc sf, s.plan.estimation = some (rr, rc, sf) → ∃ a b, w.run.correlation s.left.img s.right.img sf = (.fin a, .fin b) ∧
        dRow = ⟨.const (pyRound (-a)), rr⟩ ∧ dCol = ⟨.const (pyRound (-b)), rc⟩) := by
    cases he : s.plan.estimation with
    | none =>
      have he' : p0.get "estimation" = none := s.reads.estimation.2 he
      have hpl : s.pl.get "estimation" = none := by
        rw [Fields.get_eq_none, hk, ← Fields.get_eq_none]; exact he'
      have hL : L = s.left := by
        unfold searched at r1
        rw [he] at r1
        simp only [Except.ok.injEq] at r1
        exact r1.symm
      subst hL
      have hds := s.datasets
      rw [hpl] at hds
      have hge : givesEstimation p0 = false := by unfold givesEstimation; rw [he']
      have hin' := s.input
      rw [hge] at hin'
      obtain ⟨-, -, l, r, h1, h2, h3, h4⟩ := created_input hds
      have hsd : SameDisk w.env w.files s.inp s.roi s.left.img s.right.img := by
        refine ⟨hdisk.grids, fun v hv => ?_, fun v hv => ?_, p1, p2, fun H' W' hs => ?_⟩
        · rw [h1, Option.some.injEq] at hv; subst hv; exact h3
        · rw [h2, Option.some.injEq] at hv; subst hv; exact h4
        · have := hdisk.size _ _ hs
          simp only [Prod.mk.injEq] at this
          obtain ⟨rfl, rfl⟩ := this
          exact ⟨z1.1, z1.2, z2.1, z2.2⟩
      obtain ⟨e0, -, -, -, dRow, dCol, i1, i2, g1, g2, g3, g4⟩ :=
        C75_pair_ok w.env w.files _ s.cin s.inp s.inp' s.roi w.check s.left s.right hin' s.inputIs hds s.checked hsd
      -- the grids have the size of the image
      obtain ⟨inp2, q1, q2, q3⟩ := input_ok w.env _ s.cin false hin'
      rw [s.inputIs, Option.some.injEq, J.obj.injEq] at q1
      subst q1
      obtain ⟨size, q4, q5⟩ := q3 rfl
      have hsize := hdisk.size _ _ q4
      subst hsize
      obtain ⟨row, col, ri, ci, b1, b2, b3, b4, hkind⟩ := checkDisparity_ok w.env (H, W) s.inp q5
      obtain ⟨f1, v1, t1, y1, y2, y3, y4, y5⟩ := i1
      obtain ⟨f2, v2, t2, x1, x2, x3, x4, x5⟩ := i2
      have c1 := y1
      have c2 := x1
      rw [b1, Option.some.injEq, J.obj.injEq] at c1
      rw [b2, Option.some.injEq, J.obj.injEq] at c2
      subst c1 c2
      have gsize : ∀ t g, w.env.openGrid t = .ok g → (g.height, g.width) = (H, W) → (w.files.grid t).h = H ∧ (w.files.grid t).w = W := by
        intro t g hg e
        simp only [Prod.mk.injEq] at e
        obtain ⟨e1, e2⟩ := hdisk.grids t g hg
        omega
      have hgr : (∀ x, dRow.init = .grid x → x.h = H ∧ x.w = W) ∧ (∀ x, dCol.init = .grid x → x.h = H ∧ x.w = W) := by
        rcases hkind with ⟨t, u, rfl, rfl⟩ | ⟨x, y, hx, hy⟩
        · obtain ⟨ga, gb, o1, o2, o3, o4⟩ := checkDisparity_grids w.env (H, W) s.inp row col t u q5 b1 b2 b3 b4
          rw [b3, Option.some.injEq] at y2
          rw [b4, Option.some.injEq] at x2
          subst y2 x2
          constructor
          · intro x hx
            rcases y5 with ⟨n, hn, e⟩ | ⟨t', e1, e2⟩
            · rw [e] at hx; simp at hx
            · simp only [J.str.injEq] at e1
              subst e1
              rw [e2] at hx
              simp only [Init.grid.injEq] at hx
              subst hx
              exact gsize t ga o1 o3
          · intro x hx
            rcases x5 with ⟨n, hn, e⟩ | ⟨t', e1, e2⟩
            · rw [e] at hx; simp at hx
            · simp only [J.str.injEq] at e1
              subst e1
              rw [e2] at hx
              simp only [Init.grid.injEq] at hx
              subst hx
              exact gsize u gb o2 o4
        · rw [b3, Option.some.injEq] at y2
          rw [b4, Option.some.injEq] at x2
          subst y2 x2
          constructor
          · intro x' hx'
            rcases y5 with ⟨n, hn, e⟩ | ⟨t', rfl, -⟩
            · rw [e] at hx'; simp at hx'
            · rcases hx with h | ⟨-, ⟨h, -⟩ | ⟨h, -⟩⟩ <;> simp at h
          · intro x' hx'
            rcases x5 with ⟨n, hn, e⟩ | ⟨t', rfl, -⟩
            · rw [e] at hx'; simp at hx'
            · rcases hy with h | ⟨-, ⟨h, -⟩ | ⟨h, -⟩⟩ <;> simp at h
      have hcfg3 : s.cfg3.get "input" = some (.obj s.inp) := by
        have hne : ∀ a b c, lookup s.plan.toPipeline "estimation" ≠ .ok (.estimation a b c) := by
          intro a b c hl
          have hrefs : s.plan.refinements = [] ∨ ∃ c, s.plan.refinements = [("refinement", c)] := by
            cases hr : p0.get "refinement" with
            | none => exact Or.inl (s.reads.noRefinement hr)
            | some v =>
              obtain ⟨_, c, -, -, e⟩ := s.reads.refinement v hr
              exact Or.inr ⟨c, e⟩
          unfold Plan.toPipeline at hl
          rw [he] at hl
          rcases hrefs with e | ⟨c', e⟩ <;> rw [e] at hl <;> simp [lookup] at hl
        rw [(completed_ok w _ _ _ _ _ s.completedIs).2 hne, Fields.get_set, if_pos rfl, e0]
      have i1 : IsDisp w.files s.inp "row_disparity" dRow := ⟨row, v1, t1, y1, y2, y3, y4, y5⟩
      have i2 : IsDisp w.files s.inp "col_disparity" dCol := ⟨col, v2, t2, x1, x2, x3, x4, x5⟩
      exact ⟨dRow, dCol, ⟨g1, g2⟩, rfl, covers_of g3 z1 z2 hgr.1, covers_of g4 z1 z2 hgr.2, g3, g4, ⟨s.inp, hcfg3, i1, i2⟩,
        fun _ => ⟨i1, i2⟩, fun _ _ _ h => by simp at h⟩
    | some x =>
      obtain ⟨rr, rc, sf⟩ := x
      obtain ⟨v, v1, v2⟩ := s.reads.estimated rr rc sf he
      obtain ⟨-, -, -, -, -, -, -, -, -, -, -, -, b1, b2⟩ := buildEstimation_ranges v2
      have hc : ∃ a b, w.run.correlation s.left.img s.right.img sf = (.fin a, .fin b) := by
        unfold searched at r1
        rw [he] at r1
        simp only at r1
        split at r1
        · rename_i a b hab
          exact ⟨a, b, hab⟩
        · simp at r1
      obtain ⟨a, b, hab⟩ := hc
      obtain ⟨a1, a2, a3⟩ := searched_ranges w.run s.plan s.left L s.right.img rr rc sf a b he hab r1
      refine ⟨⟨.const (pyRound (-a)), rr⟩, ⟨.const (pyRound (-b)), rc⟩, ⟨by simp only; omega, by simp only; omega⟩, a1, trivial, trivial,
        a2, a3, ?_, fun h => ?_, ?_⟩
      · have hl : lookup s.plan.toPipeline "estimation" = .ok (.estimation rr rc sf) := by
          unfold Plan.toPipeline
          rw [he]
          rfl
        have hcm := s.completedIs
        unfold completed at hcm
        rw [hl] at hcm
        simp only [hab] at hcm
        obtain ⟨o', q1, hcm⟩ := bind_eq_ok hcm
        simp only [pure, Except.pure, Except.ok.injEq] at hcm
        rw [estimationRun_fin] at q1
        cases hu' : updateCfg (s.cfg1.set "input" (.obj s.inp')) (dispDict (pyRound (-b)) rc) (dispDict (pyRound (-a)) rr)
            (.fin (-a), .fin (-b)) (w.extra s.left.img s.right.img sf).1 (w.extra s.left.img s.right.img sf).2 with
        | error e => rw [hu'] at q1; simp [Except.map] at q1
        | ok c =>
          rw [hu'] at q1
          simp only [Except.map, Except.ok.injEq] at q1
          rw [← q1] at hcm
          simp only at hcm
          subst hcm
          unfold updateCfg at hu'
          obtain ⟨c1, q2, hu'⟩ := bind_eq_ok hu'
          obtain ⟨i, hi, rfl⟩ := modifyIn_ok q2
          split at hu'
          · rename_i pl hpl
            obtain ⟨p1, q3, hu'⟩ := bind_eq_ok hu'
            simp only [pure, Except.pure, Except.ok.injEq] at hu'
            rw [← hu']
            refine ⟨_, by rw [Fields.get_set, if_neg (by decide), Fields.get_set, if_pos rfl], ?_, ?_⟩
            · exact ⟨_, _, _, by rw [Fields.get_set, if_pos rfl]; rfl, rfl, rfl, Or.inl rfl, Or.inl ⟨_, Or.inl rfl, rfl⟩⟩
            · exact ⟨_, _, _, by rw [Fields.get_set, if_neg (by decide), Fields.get_set, if_pos rfl]; rfl, rfl, rfl, Or.inl rfl,
                Or.inl ⟨_, Or.inl rfl, rfl⟩⟩
          · simp at hu'
          · simp at hu'
      · rw [s.reads.estimation.1 h] at he
        simp at he
      · intro rr' rc' sf' h
        simp only [Option.some.injEq, Prod.mk.injEq] at h
        obtain ⟨rfl, rfl, rfl⟩ := h
        exact ⟨a, b, hab, rfl, rfl⟩
  obtain ⟨dRow, dCol, e1, e2, e3, e4, e5, e6, e7, e8, e9⟩ := core
  have hp : PairOk L s.right.img := ⟨by rw [e2]; exact p1, by rw [e2]; exact p2, by rw [e2]; exact p3, by rw [e2]; exact p4,
    ranges_wf _ _ _ _ _ _ _ (by rw [e2]; exact p1) (by rw [e2]; exact p2) e1.2 e6,
    ranges_wf _ _ _ _ _ _ _ (by rw [e2]; exact p1) (by rw [e2]; exact p2) e1.1 e5⟩
  exact ⟨dRow, dCol, L, cv, o, m, e1, e2, e3, e4, e5, e6, hp, r2, r3, r4, hmaps, e7, e8, e9⟩

end

end Verif.Props
