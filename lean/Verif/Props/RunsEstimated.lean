import Verif.Spec.RunsEstimated
import Verif.Props.RunsRoiFlow

/-!
# C126: which accepted configurations run to the end, with a ROI and an estimation
-/

namespace Verif.Props

open Verif Verif.Config Verif.Machine Verif.ImgTools Verif.MatchingCost Verif.Disparity Verif.Estimation Verif.Run Verif.Main Verif.Spec
  Verif.Save Verif.Statistics

set_option linter.unusedSectionVars false

variable {K : Type} [Field K] [LinearOrder K] [IsStrictOrderedRing K] [FloorRing K]

/-- A checked pipeline with an estimation. -/
theorem estimation_given {w : World K} {user p0 pl' : Fields} {m : Mach (Machine.Attrs J Margins)} (hw : user.wf)
    (hu : user.get "pipeline" = some (.obj p0))
    (h : checkPipelineJ w.steps user (fresh .init) = (m, .ok (.cons "pipeline" (.obj pl') .nil))) (he : p0.get "estimation" ≠ none) :
    givesEstimation p0 = true := by
  obtain ⟨-, -, -, -, hg⟩ := pipeline_new w.steps user p0 pl' m hw hu h
  obtain ⟨v, hv⟩ := Option.ne_none_iff_exists'.1 he
  obtain ⟨c, v', h1, -, -, -⟩ := hg _ _ hv
  unfold givesEstimation
  rw [hv]
  simp only [decide_eq_true_eq]
  rintro rfl
  simp [Checked, World.steps, stepsOf, J.convAll, conv, estimationCheck] at h1

/-- The default section of a disparity. -/
def dispDefault : Fields := .cons "init" (.int (-9997)) (.cons "range" (.int 2) .nil)

/-- The section of a disparity after the check with an estimation. -/
theorem default_merged {env : Config.Env} {user cfg inp uf : Fields} (hw : user.wf)
    (h : checkInputSection env user true = .ok cfg) (hu : user.get "input" = some (.obj uf)) (hin : cfg.get "input" = some (.obj inp))
    {k : String} (hk : k = "col_disparity" ∨ k = "row_disparity") :
    ∃ f, inp.get k = some (.obj f) ∧ ((uf.get k = none ∧ f = dispDefault) ∨
      ∃ fu, uf.get k = some (.obj fu) ∧ fu.convAll.keys.Nodup ∧ updateConf dispDefault fu.convAll = .ok f) := by
  obtain ⟨inp2, i1, hsch, -⟩ := input_ok env user cfg true h
  rw [hin, Option.some.injEq, J.obj.injEq] at i1
  subst i1
  obtain ⟨c, c1, c2, -, -⟩ := checkInputSection_ok h
  simp only [if_true] at c2
  have hcw : c.wf := updateConf_wf _ _ _ hw (by simp [defaultInput, Fields.wf, J.wf, Fields.keys]) c1
  have hci : ∃ cf, c.get "input" = some (.obj cf) := by
    obtain ⟨v', h1, h2⟩ := (updateConf_get user defaultInput c (Fields.wf_keys user hw) c1 "input").2 _ hu
    simp only [defaultInput, Fields.get, if_true] at h1
    obtain ⟨g, e, -⟩ := updateVal_obj h1
    exact ⟨g, by rw [h2, e]⟩
  obtain ⟨cf, hcf⟩ := hci
  obtain ⟨uf', u1, -, u3⟩ := input_section_get hw c1 hcf (by rw [hu]; rfl)
  rw [hu, Option.some.injEq, J.obj.injEq] at u1
  subst u1
  obtain ⟨v', h1, h2⟩ := (updateConf_get c defaultDisp cfg (Fields.wf_keys c hcw) c2 "input").2 _ hcf
  rw [hin, Option.some.injEq] at h2
  subst h2
  simp only [defaultDisp, Fields.get, if_true] at h1
  obtain ⟨g, e, hg⟩ := updateVal_obj h1
  rw [J.obj.injEq] at e
  subst e
  have cfw : cf.wf := Fields.wf_get c hcw hcf
  obtain ⟨f, i, r, n, b1, -, b3, b4, b5, -⟩ := schema_disp env inp hsch k hk
  refine ⟨f, b1, ?_⟩
  have hd : ∀ F : Fields, F = (Fields.cons "col_disparity" (.obj dispDefault) (.cons "row_disparity" (.obj dispDefault) .nil)) →
      F.get k = some (.obj dispDefault) := by
    rintro F rfl
    rcases hk with rfl | rfl <;> simp [Fields.get]
  have hk1 : k ≠ "left" := by rcases hk with rfl | rfl <;> decide
  have hk2 : k ≠ "right" := by rcases hk with rfl | rfl <;> decide
  have hget := updateConf_get cf (.cons "col_disparity" (.obj dispDefault) (.cons "row_disparity" (.obj dispDefault) .nil)) inp
    (Fields.wf_keys _ cfw) hg k
  rw [hd _ rfl] at hget
  cases hq : uf.get k with
  | none =>
    have n1 : cf.get k = none := by rw [u3 _ hk1 hk2, hq]; rfl
    rw [hget.1 n1, Option.some.injEq, J.obj.injEq] at b1
    exact .inl ⟨rfl, b1.symm⟩
  | some v =>
    have key : ∀ v : J, v.isLeaf = true → updateVal (some (.obj dispDefault)) v.convAll = .ok (.obj f) → False := by
      intro v hv hh
      have hl := conv_leaf hv
      rw [convAll_leaf hv, updateVal_leaf _ hl, Except.ok.injEq] at hh
      have := conv_leaf hl
      rw [hh] at this
      simp [J.isLeaf] at this
    have n1 : cf.get k = some v.convAll := by rw [u3 _ hk1 hk2, hq]; rfl
    obtain ⟨w', w1, w2⟩ := hget.2 _ n1
    rw [b1, Option.some.injEq] at w2
    subst w2
    cases v with
    | obj fu =>
      obtain ⟨g', e, hg'⟩ := updateVal_obj w1
      rw [J.obj.injEq] at e
      subst e
      exact .inr ⟨fu, rfl, Fields.wf_keys _ (Fields.wf_get cf cfw n1), hg'⟩
    | _ =>
      exfalso
      exact key _ rfl w1

/-- A value of the section of a disparity after the check with an estimation. -/
theorem default_value {f fu : Fields} {sub : String} {d x : J} (hs : dispDefault.get sub = some d) (hd : ∀ g, d ≠ .obj g)
    (hn : fu.convAll.keys.Nodup)
    (h : updateConf dispDefault fu.convAll = .ok f) (hx : f.get sub = some x) :
    (∃ j, fu.get sub = some j ∧ (∀ g, j ≠ .obj g) ∧ x = conv j) ∨ ((fu.get sub = none ∨ fu.get sub = some (.obj .nil)) ∧ x = d) := by
  have hget := updateConf_get _ _ f hn h sub
  rw [hs, hx] at hget
  cases hj : fu.get sub with
  | none =>
    have n : fu.convAll.get sub = none := by rw [Fields.get_convAll, hj]; rfl
    have := hget.1 n
    rw [Option.some.injEq] at this
    exact .inr ⟨.inl rfl, this⟩
  | some j =>
    have n : fu.convAll.get sub = some j.convAll := by rw [Fields.get_convAll, hj]; rfl
    obtain ⟨v', h1, h2⟩ := hget.2 _ n
    rw [Option.some.injEq] at h2
    subst h2
    cases j with
    | obj g =>
      right
      rw [J.convAll] at h1
      simp only [updateVal] at h1
      cases g with
      | nil =>
        refine ⟨.inr rfl, ?_⟩
        cases d with
        | obj g => exact absurd rfl (hd g)
        | _ => simpa [Fields.convAll] using h1.symm
      | cons a b c =>
        exfalso
        cases d with
        | obj g => exact absurd rfl (hd g)
        | _ => simp [Fields.convAll] at h1
    | _ =>
      left
      have hl : ∀ v : J, v.isLeaf = true → updateVal (some d) v.convAll = .ok x → x = conv v := by
        intro v hv hh
        rw [convAll_leaf hv, updateVal_leaf _ (conv_leaf hv), conv_conv, Except.ok.injEq] at hh
        exact hh.symm
      exact ⟨_, rfl, fun g => by simp, hl _ rfl h1⟩

/-- The disparity around the ROI is the one of the section checked. -/
theorem region_iff {env : Config.Env} {files : Datasets.Files K} {user cfg inp uf : Fields} (hw : user.wf)
    (h : checkInputSection env user true = .ok cfg) (hu : user.get "input" = some (.obj uf)) (hin : cfg.get "input" = some (.obj inp))
    {k : String} (hk : k = "col_disparity" ∨ k = "row_disparity") (d : Disp) : RegionDisp files uf k d ↔ IsDisp files inp k d := by
  obtain ⟨f, h1, h2⟩ := default_merged hw h hu hin hk
  obtain ⟨inp2, i1, hsch, -⟩ := input_ok env user cfg true h
  rw [hin, Option.some.injEq, J.obj.injEq] at i1
  subst i1
  obtain ⟨f', i, r, n, b1, -, b3, b4, b5, -⟩ := schema_disp env inp hsch k hk
  rw [h1, Option.some.injEq, J.obj.injEq] at b1
  subst b1
  have convInt : ∀ {v : J} {n : Int}, IsInt true v n ↔ IsInt true (conv v) n := by
    intro v n
    constructor
    · intro h; rw [(isInt_leaf h).2]; exact h
    · intro h
      cases v with
      | str s => simp only [conv] at h; split_ifs at h <;> (rcases h with h | ⟨-, ⟨h, -⟩ | ⟨h, -⟩⟩ <;> simp at h)
      | _ => exact h
  have convStr : ∀ {v : J} {s : String}, conv v = .str s ↔ v = .str s ∧ s ∉ ["NaN", "inf", "-inf"] := by
    intro v s
    cases v with
    | str t =>
      simp only [conv, List.mem_cons, List.not_mem_nil, or_false, not_or]
      split_ifs with q1 q2 q3
      · subst q1; simp; rintro rfl; simp
      · subst q2; simp; rintro rfl; simp
      · subst q3; simp; rintro rfl; simp
      · simp only [J.str.injEq]
        constructor
        · rintro rfl; exact ⟨rfl, q1, q2, q3⟩
        · exact And.left
    | _ => simp [conv]
  -- the two values
  have value : ∀ sub x dv, dispDefault.get sub = some dv → (∀ g, dv ≠ .obj g) → f.get sub = some x →
      ∀ v, GivenOr uf k sub dv v → x = conv v ∨ (x = dv ∧ v = dv) := by
    intro sub x dv hs hd hx v hv
    rcases h2 with ⟨e, rfl⟩ | ⟨fu, e, hn, hup⟩
    · rcases hv with ⟨g, q, -⟩ | ⟨-, q⟩
      · rw [e] at q; simp at q
      · rw [hs, Option.some.injEq] at hx
        exact .inr ⟨hx.symm, q⟩
    · rcases default_value hs hd hn hup hx with ⟨j, j1, j2, j3⟩ | ⟨j1, j2⟩
      · left
        rcases hv with ⟨g, q, q', -⟩ | ⟨q | ⟨g, q, q'⟩, -⟩
        · rw [e, Option.some.injEq, J.obj.injEq] at q
          subst q
          rw [j1, Option.some.injEq] at q'
          rw [j3, q']
        · rw [e] at q; simp at q
        · rw [e, Option.some.injEq, J.obj.injEq] at q
          subst q
          rw [j1] at q'
          rcases q' with q' | q'
          · simp at q'
          · rw [Option.some.injEq] at q'
            exact absurd q' (j2 _)
      · rcases hv with ⟨g, q, q', q''⟩ | ⟨-, q⟩
        · rw [e, Option.some.injEq, J.obj.injEq] at q
          subst q
          rw [q'] at j1
          rcases j1 with j1 | j1
          · simp at j1
          · rw [Option.some.injEq] at j1
            exact absurd j1 (q'' _)
        · exact .inr ⟨j2, q⟩
  have exists' : ∀ sub x dv, dispDefault.get sub = some dv → (∀ g, dv ≠ .obj g) → conv dv = dv → f.get sub = some x →
      ∃ v, GivenOr uf k sub dv v ∧ x = conv v := by
    intro sub x dv hs hd hcv hx
    rcases h2 with ⟨e, rfl⟩ | ⟨fu, e, hn, hup⟩
    · rw [hs, Option.some.injEq] at hx
      exact ⟨dv, .inr ⟨.inl e, rfl⟩, by rw [hcv, hx]⟩
    · rcases default_value hs hd hn hup hx with ⟨j, j1, j2, j3⟩ | ⟨j1, j2⟩
      · exact ⟨j, .inl ⟨fu, e, j1, j2⟩, j3⟩
      · exact ⟨dv, .inr ⟨.inr ⟨fu, e, j1⟩, rfl⟩, by rw [hcv, j2]⟩
  constructor
  · rintro ⟨i', r', g1, g2, g3, g4⟩
    refine ⟨f, i, r, h1, b3, b4, ?_, ?_⟩
    · rcases value "range" r (.int 2) rfl (by simp) b4 r' g2 with q | ⟨q, q'⟩
      · rw [q]; exact convInt.1 g3
      · rw [q, ← q']; exact g3
    · rcases value "init" i (.int (-9997)) rfl (by simp) b3 i' g1 with q | ⟨q, q'⟩
      · rcases g4 with ⟨m, g4, g5⟩ | ⟨s, g4, g5, g6⟩
        · exact .inl ⟨m, by rw [q]; exact convInt.1 g4, g5⟩
        · exact .inr ⟨s, by rw [q]; exact convStr.2 ⟨g4, g5⟩, g6⟩
      · rcases g4 with ⟨m, g4, g5⟩ | ⟨s, g4, g5, g6⟩
        · exact .inl ⟨m, by rw [q, ← q']; exact g4, g5⟩
        · rw [q'] at g4; simp at g4
  · rintro ⟨f', i', r', g0, g1, g2, g3, g4⟩
    rw [h1, Option.some.injEq, J.obj.injEq] at g0
    subst g0
    rw [b3, Option.some.injEq] at g1
    rw [b4, Option.some.injEq] at g2
    subst g1 g2
    obtain ⟨vi, q1, q2⟩ := exists' "init" i (.int (-9997)) rfl (by simp) rfl b3
    obtain ⟨vr, q3, q4⟩ := exists' "range" r (.int 2) rfl (by simp) rfl b4
    refine ⟨vi, vr, q1, q3, convInt.2 (by rw [← q4]; exact g3), ?_⟩
    rcases g4 with ⟨m, g4, g5⟩ | ⟨s, g4, g5⟩
    · exact .inl ⟨m, convInt.2 (by rw [← q2]; exact g4), g5⟩
    · obtain ⟨e1, e2⟩ := convStr.1 (q2.symm.trans g4)
      exact .inr ⟨s, e1, e2, g5⟩

section
variable {w : World K} {user p0 ui : Fields} {out : List (Written K)}

/-- The disparities around the ROI of an execution with an estimation. -/
theorem Stages.regionDisp (s : Stages w user p0 out) (hw : user.wf) (hge : givesEstimation p0 = true)
    (hui : user.get "input" = some (.obj ui)) {R : Roi} (hR : s.roi = some R) :
    ∃ dRow dCol, RegionDisp w.files ui "row_disparity" dRow ∧ RegionDisp w.files ui "col_disparity" dCol ∧ SameInitKind dRow dCol := by
  have hin := s.input
  rw [hge] at hin
  obtain ⟨col, row, k1, k2, k3⟩ := s.roiIs
  unfold roiStep at k3
  split at k3
  · simp only [Except.ok.injEq, Prod.mk.injEq] at k3
    rw [hR] at k3
    simp at k3
  · obtain ⟨R0, e1, h⟩ := bind_eq_ok k3
    obtain ⟨c, e2, h⟩ := bind_eq_ok h
    obtain ⟨r, e3, h⟩ := bind_eq_ok h
    obtain ⟨o, e4, h⟩ := bind_eq_ok h
    have hu' : (getConfigInput user).get "input" = some (.obj ui) := by rw [getConfigInput_get]; exact hui
    refine ⟨r, c, (region_iff (getConfigInput_wf hw) hin hu' s.inputIs (.inr rfl) _).2 ?_,
      (region_iff (getConfigInput_wf hw) hin hu' s.inputIs (.inl rfl) _).2 ?_, ?_⟩
    · obtain ⟨f, i, r, x1, x2⟩ := dispOf_ok e3
      subst x1
      exact ⟨f, i, r, k2, x2⟩
    · obtain ⟨f, i, r, x1, x2⟩ := dispOf_ok e2
      subst x1
      exact ⟨f, i, r, k1, x2⟩
    · unfold getRoiProcessing at e4
      unfold SameInitKind
      cases h1 : c.init <;> cases h2 : r.init <;> rw [h1, h2] at e4 <;> simp at e4 ⊢

end

/-- The disparity around a ROI is unique. -/
theorem regionDisp_unique {files : Datasets.Files K} {ui : Fields} {k : String} {d d' : Disp} (h : RegionDisp files ui k d)
    (h' : RegionDisp files ui k d') : d = d' := by
  have unique : ∀ {sub : String} {dv v v' : J}, GivenOr ui k sub dv v → GivenOr ui k sub dv v' → v = v' := by
    rintro sub dv v v' (⟨f, a1, a2, a3⟩ | ⟨a1, a2⟩) (⟨f', b1, b2, b3⟩ | ⟨b1, b2⟩)
    · rw [a1, Option.some.injEq, J.obj.injEq] at b1
      subst b1
      rw [a2, Option.some.injEq] at b2
      exact b2
    · rcases b1 with b1 | ⟨g, b1, b3⟩
      · rw [a1] at b1; simp at b1
      · rw [a1, Option.some.injEq, J.obj.injEq] at b1
        subst b1
        rw [a2] at b3
        rcases b3 with b3 | b3
        · simp at b3
        · rw [Option.some.injEq] at b3
          exact absurd b3 (a3 _)
    · rcases a1 with a1 | ⟨g, a1, a4⟩
      · rw [b1] at a1; simp at a1
      · rw [b1, Option.some.injEq, J.obj.injEq] at a1
        subst a1
        rw [b2] at a4
        rcases a4 with a4 | a4
        · simp at a4
        · rw [Option.some.injEq] at a4
          exact absurd a4 (b3 _)
    · rw [a2, b2]
  obtain ⟨i, r, g1, g2, g3, g4⟩ := h
  obtain ⟨i', r', g1', g2', g3', g4'⟩ := h'
  obtain rfl := unique g1 g1'
  obtain rfl := unique g2 g2'
  have hr : d.range = d'.range := IsInt.unique g3 g3'
  have hi : d.init = d'.init := by
    rcases g4 with ⟨n, hn, e⟩ | ⟨s, rfl, -, e⟩ <;> rcases g4' with ⟨n', hn', e'⟩ | ⟨s', hs', -, e'⟩
    · rw [e, e', IsInt.unique hn hn']
    · subst hs'
      rcases hn with h | ⟨-, ⟨h, -⟩ | ⟨h, -⟩⟩ <;> simp at h
    · rcases hn' with h | ⟨-, ⟨h, -⟩ | ⟨h, -⟩⟩ <;> simp at h
    · simp only [J.str.injEq] at hs'
      rw [e, e', hs']
  cases d; cases d'
  simp_all

/-- C126: for every accepted configuration with an estimation, a disparity step and a ROI, in every world where the images accepted by the check
can be read: if `main` ends without exception, each direction has a disparity around the ROI (an initial disparity which is an integer, a grid, or
absent), and they are two integers or two grids. -/
theorem C126_needs_disparities (w : World K) (user p0 ui : Fields) (v : J) (H W : Nat)
    (hw : user.wf) (hc : RunContract w H W) (hu : user.get "pipeline" = some (.obj p0)) (hd : "disparity" ∈ p0.keys)
    (hR : user.get "ROI" = some v) (he : p0.get "estimation" ≠ none)
    (hui : user.get "input" = some (.obj ui)) (hrun : (Main.main w user).2 = none) :
    ∃ dRow dCol, RegionDisp w.files ui "row_disparity" dRow ∧ RegionDisp w.files ui "col_disparity" dCol ∧ SameInitKind dRow dCol := by
  obtain ⟨s⟩ := main_stages w user p0 (Main.main w user).1 hw hc.pandora hu hd (Prod.ext rfl hrun)
  obtain ⟨R, hRs⟩ : ∃ R, s.roi = some R := by
    have hf := s.roiFor
    cases hr : s.roi with
    | none => rw [hr] at hf; rw [show user.get "ROI" = none from hf] at hR; simp at hR
    | some r => exact ⟨r, rfl⟩
  exact s.regionDisp hw (estimation_given hw hu s.pipeline he) hui hRs

/-- C126: for every accepted configuration with an estimation, a disparity step and a ROI of at least two rows and columns inside the image, in
every world where the images accepted by the check can be read and the estimation finds finite shifts: `main` ends without exception if and only
if the disparities around the ROI are two integers or two grids, a dichotomy has steps of one, and for an optical
flow, on each axis, some point of the maps has others at least half a window away on each side and each group of `step` pixels read holds a
point of the maps. The pixels read are
those of the image at most `max |lo| g` before the first pixel of the ROI and at most `max |hi| g'` after its last one, in each direction,
where `lo` and `hi` are the extreme disparities of the user (completed by -9997 and 2), not those which are estimated, and `g` and `g'` the margins
recorded for the pipeline. -/
theorem C126_runs_exactly_estimated (w : World K) (user p0 mc cfg ui : Fields) (v : J) (m : Mach (Machine.Attrs J Margins)) (H W : Nat)
    (rf rl cf cl : Int) (sr sc : Nat) (dRow dCol : Disp) (lor hir loc hic : Int) (g : RoiMargins)
    (hw : user.wf) (hc : RunContract w H W) (hu : user.get "pipeline" = some (.obj p0)) (hd : "disparity" ∈ p0.keys)
    (hmc : p0.get "matching_cost" = some (.obj mc)) (hst : StepIs mc sr sc) (hR : user.get "ROI" = some v) (hv : RoiIs v rf rl cf cl)
    (hne : rf < rl ∧ rl < H ∧ cf < cl ∧ cl < W) (he : p0.get "estimation" ≠ none)
    (hcor : ∀ l r s, ∃ x y, w.run.correlation l r s = (.fin x, .fin y)) (hui : user.get "input" = some (.obj ui))
    (h1 : RegionDisp w.files ui "row_disparity" dRow) (h2 : RegionDisp w.files ui "col_disparity" dCol)
    (l1 : HullIs dRow lor hir) (l2 : HullIs dCol loc hic) (h : Config.checkConf w.env w.steps user (fresh .init) = (m, .ok cfg))
    (hg : g = w.globalMargins m.data.cumulative m.data.nonCumulative) :
    (Main.main w user).2 = none ↔ SameInitKind dRow dCol ∧
      ∀ f, p0.get "refinement" = some (.obj f) → (f.get "refinement_method" = some (.str "dichotomy") → sr = 1 ∧ sc = 1) ∧
        (f.get "refinement_method" = some (.str "optical_flow") →
          ∃ half, HalfWindowIs w mc half ∧ FlowAxis (NearRoi H rf rl lor hir g.up g.down) rf sr half ∧
            FlowAxis (NearRoi W cf cl loc hic g.left g.right) cf sc half) := by
  subst hg
  have hz : ZoneIs user H W rf rl cf cl := .inl ⟨v, hR, hv⟩
  obtain ⟨p0', cin, pl', c1, c2, c3, -, -, -, -, -⟩ := checkConf_gets w.env w.steps user cfg _ m hw h
  rw [hu, Option.some.injEq, J.obj.injEq] at c1
  subst c1
  have hge : givesEstimation p0 = true := estimation_given hw hu c3 he
  have hu' : (getConfigInput user).get "input" = some (.obj ui) := by rw [getConfigInput_get]; exact hui
  constructor
  · intro hrun
    obtain ⟨s⟩ := main_stages w user p0 (Main.main w user).1 hw hc.pandora hu hd (Prod.ext rfl hrun)
    have hsm : s.m = m := by
      have := s.checkedAll
      rw [h, Prod.mk.injEq] at this
      exact this.1.symm
    obtain ⟨R, hRs⟩ : ∃ R, s.roi = some R := by
      have hf := s.roiFor
      cases hr : s.roi with
      | none => rw [hr] at hf; rw [show user.get "ROI" = none from hf] at hR; simp at hR
      | some r => exact ⟨r, rfl⟩
    obtain ⟨d1, d2, k1, k2, k3⟩ := s.regionDisp hw hge hui hRs
    obtain rfl := regionDisp_unique h1 k1
    obtain rfl := regionDisp_unique h2 k2
    have hin := s.input
    rw [hge] at hin
    have hmade : RegionMade w s.m (some R) dRow dCol := by
      intro R' hR'
      exact s.region (hRs.trans hR') ((region_iff (getConfigInput_wf hw) hin hu' s.inputIs (.inr rfl) _).1 h1)
        ((region_iff (getConfigInput_wf hw) hin hu' s.inputIs (.inl rfl) _).1 h2)
    have hn := s.needs hw hc hu hmc hst hR hv hne hRs hmade l1 l2
    rw [hsm] at hn
    exact ⟨k3, hn⟩
  · rintro ⟨hk, hf⟩
    refine accepted_runs_fits w user p0 mc cfg m H W rf rl cf cl sr sc hw hc hu hd hmc hst hz hne
      (fun _ => ⟨hcor, .inr fun cin' inp k1 k2 => ?_⟩) ?_ (.inr (.inl he)) h
    · refine ⟨dCol, dRow, (region_iff (getConfigInput_wf hw) k1 hu' k2 (.inl rfl) _).1 h2,
        (region_iff (getConfigInput_wf hw) k1 hu' k2 (.inr rfl) _).1 h1, ?_⟩
      rcases hk with ⟨i, j, x1, x2⟩ | ⟨i, j, x1, x2⟩
      · exact .inl ⟨j, i, x2, x1⟩
      · exact .inr ⟨j, i, x2, x1⟩
    · intro x hx
      obtain ⟨f, rfl, hm⟩ := refinement_methods hw hu c3 hx
      refine ⟨f, rfl, ?_⟩
      rcases hm with hm | hm | hm
      · exact .inr (.inl ⟨hm, (hf f hx).1 hm⟩)
      · obtain ⟨half, hh, f1, f2⟩ := (hf f hx).2 hm
        refine .inr (.inr ⟨hm, ?_⟩)
        intro c st wn mar half' g1 g2 p1 p2 roi img hrf hzo _ hin
        obtain rfl := half_unique hh ⟨_, _, _, _, g1, g2⟩
        obtain ⟨cin', inp, k1, k2, hmade⟩ := hin
        rw [hge] at k1
        have hmade := hmade _ _ ((region_iff (getConfigInput_wf hw) k1 hu' k2 (.inr rfl) _).1 h1)
          ((region_iff (getConfigInput_wf hw) k1 hu' k2 (.inl rfl) _).1 h2)
        obtain ⟨t1, t2, -⟩ := zone_size hzo hne
        cases roi with
        | none => rw [show user.get "ROI" = none from hrf] at hR; simp at hR
        | some R =>
          obtain ⟨n1, n2⟩ := zone_near hzo hmade l1 l2
          obtain ⟨⟨ar, am, ae⟩, ac, bm, be⟩ := zone_margin hzo
          rw [am, bm]
          exact ⟨(flow_axis p1 (by omega) n1 ae).1 f1, (flow_axis p2 (by omega) n2 be).1 f2⟩
      · exact .inl hm

/-- The rows `a` to `b` of the image, an estimation and an optical flow. -/
def exUserEstBand (init : Option J) (a b : Int) (sr sc : Int) : Fields := dict [
  ("input", exInput init),
  ("ROI", .obj (dict [("row", .obj (dict [("first", .int a), ("last", .int b)])), ("col", .obj (dict [("first", .int 0), ("last", .int 2)]))])),
  ("pipeline", .obj (exPipeline (some exEst) sr sc (some exFlow)))]

/-- The configurations of the examples meet the hypotheses of C126, with windows of three pixels. -/
theorem exEstBand_exactly (init : Option J) (n r : Int) (hi : (init = none ∧ n = -9997 ∧ r = 2) ∨ (init = some (.int n) ∧ r = 1))
    (a b : Int) (hab : a < b ∧ b < 9) (sr sc : Nat) (ha : accepted (exWorldOf 1 9) (exUserEstBand init a b sr sc) = true) :
    (Main.main (exWorldOf 1 9) (exUserEstBand init a b sr sc)).2 = none ↔
      FlowAxis (NearRoi 9 a b (n - r) (n + r) 0 0) a sr 1 ∧ FlowAxis (NearRoi 3 0 2 (n - r) (n + r) 0 0) 0 sc 1 := by
  obtain ⟨m, cfg, h⟩ := accepted_ok ha
  have hwf : (exUserEstBand init a b sr sc).wf := by
    rcases hi with ⟨rfl, -⟩ | ⟨rfl, -⟩ <;>
      simp [exUserEstBand, exInput, exPipeline, exFlow, exEst, dict, Fields.append, Fields.wf, J.wf, Fields.keys]
  have hull : HullIs (⟨.const n, r⟩ : Disp) (n - r) (n + r) := by
    refine ⟨?_, ?_, ?_, ?_⟩ <;> simp only [InDispRange] <;> omega
  have hh : HalfWindowIs (exWorldOf 1 9) (dict [("matching_cost_method", .str "zncc"), ("window_size", .int 1),
      ("step", .arr (.cons (.int sr) (.cons (.int sc) .nil)))]) 1 := by
    obtain ⟨p0', cin, pl', c1, c2, c3, -, -, -, -, -⟩ := checkConf_gets _ _ _ cfg _ m hwf h
    have hp : exPipeline (some exEst) sr sc (some exFlow) = p0' := by
      have : (exUserEstBand init a b sr sc).get "pipeline" = some (.obj (exPipeline (some exEst) sr sc (some exFlow))) := rfl
      rw [this, Option.some.injEq, J.obj.injEq] at c1
      exact c1
    subst hp
    obtain ⟨vm, cm', st, wn, mar, c', k1, k2, k3, k4, k5, k6⟩ := checked_with (v := exFlow) hwf rfl c3 rfl
    have k1' : some vm = some _ := k1.symm
    rw [Option.some.injEq] at k1'
    subst k1'
    refine ⟨_, _, _, _, k2, ?_⟩
    rw [mc_window (fun _ => rfl) k2]
    exact .inl rfl
  have hrd : ∀ ui, (exUserEstBand init a b sr sc).get "input" = some (.obj ui) →
      RegionDisp (exWorldOf 1 9).files ui "row_disparity" ⟨.const n, r⟩ ∧ RegionDisp (exWorldOf 1 9).files ui "col_disparity" ⟨.const n, r⟩ := by
    intro ui hui
    have hui' : some (exInput init) = some (.obj ui) := hui
    rcases hi with ⟨rfl, rfl, rfl⟩ | ⟨rfl, rfl⟩
    · simp only [exInput, Option.some.injEq, J.obj.injEq] at hui'
      subst hui'
      exact ⟨⟨_, _, .inr ⟨.inl rfl, rfl⟩, .inr ⟨.inl rfl, rfl⟩, .inl rfl, .inl ⟨_, .inl rfl, rfl⟩⟩,
        _, _, .inr ⟨.inl rfl, rfl⟩, .inr ⟨.inl rfl, rfl⟩, .inl rfl, .inl ⟨_, .inl rfl, rfl⟩⟩
    · simp only [exInput, Option.some.injEq, J.obj.injEq] at hui'
      subst hui'
      exact ⟨⟨.int n, .int 1, .inl ⟨_, rfl, rfl, by simp⟩, .inl ⟨_, rfl, rfl, by simp⟩, .inl rfl, .inl ⟨_, .inl rfl, rfl⟩⟩,
        .int n, .int 1, .inl ⟨_, rfl, rfl, by simp⟩, .inl ⟨_, rfl, rfl, by simp⟩, .inl rfl, .inl ⟨_, .inl rfl, rfl⟩⟩
  obtain ⟨ui, hui⟩ : ∃ ui, (exUserEstBand init a b sr sc).get "input" = some (.obj ui) := ⟨_, rfl⟩
  rw [C126_runs_exactly_estimated (exWorldOf 1 9) (exUserEstBand init a b sr sc) (exPipeline (some exEst) sr sc (some exFlow)) _ cfg ui _ m 9 3 a b
    0 2 sr sc ⟨.const n, r⟩ ⟨.const n, r⟩ (n - r) (n + r) (n - r) (n + r) ⟨0, 0, 0, 0⟩
    hwf (exWorldOf_contract 1 9 (by decide)) rfl
    (by simp [exPipeline, dict, Fields.append, Fields.keys]) rfl (.inl ⟨_, _, rfl, .inl rfl, .inl rfl⟩) rfl
    ⟨_, _, _, _, _, _, _, rfl, rfl, rfl, rfl, rfl, rfl, rfl, .inl rfl, .inl rfl, .inl rfl, .inl rfl⟩
    ⟨hab.1, hab.2, by decide⟩ (by simp [exPipeline, dict, Fields.append, Fields.get]) (fun _ _ _ => ⟨_, _, rfl⟩) hui
    (hrd ui hui).1 (hrd ui hui).2 hull hull h rfl]
  constructor
  · rintro ⟨-, h⟩
    obtain ⟨half, h1, h2, h3⟩ := (h _ rfl).2 rfl
    obtain rfl := half_unique h1 hh
    exact ⟨h2, h3⟩
  · rintro ⟨h1, h2⟩
    refine ⟨.inl ⟨_, _, rfl, rfl⟩, fun f hf => ?_⟩
    have hf' : some (J.obj f) = some exFlow := hf.symm
    simp only [exFlow, Option.some.injEq, J.obj.injEq] at hf'
    subst hf'
    exact ⟨fun e => by simp [dict, Fields.get] at e, fun _ => ⟨1, hh, h1, h2⟩⟩

/-- The rows 3 to 6 with a step of two, an initial disparity of 0 and a range of 1: the rows read are 2 to 7, each group of two rows holds a point,
the execution ends. -/
example : (Main.main (exWorldOf 1 9) (exUserEstBand (some (.int 0)) 3 6 2 1)).2 = none := by
  refine (exEstBand_exactly _ 0 1 (.inr ⟨rfl, rfl⟩) 3 6 (by decide) 2 1 (by decide +kernel)).2 ⟨⟨⟨5, ?_⟩, ?_⟩, ⟨1, ?_⟩, ?_⟩
  · exact ⟨by decide, by unfold NearRoi; decide, ⟨1, by decide, by unfold NearRoi; decide⟩, 1, by decide, by unfold NearRoi; decide⟩
  · intro a h1 h2 k hk
    have h3 := h2 2 (by unfold NearRoi; decide)
    unfold NearRoi at h1 hk
    norm_num at h1 hk
    exact ⟨a + (k : Int) * 2 + 1, by unfold NearRoi; norm_num; omega, by push_cast; omega, by push_cast; omega, by push_cast; omega⟩
  · exact ⟨by decide, by unfold NearRoi; decide, ⟨1, by decide, by unfold NearRoi; decide⟩, 1, by decide, by unfold NearRoi; decide⟩
  · intro a h1 h2 k hk
    exact ⟨_, hk, by push_cast; omega, by omega, by omega⟩

/-- The same rows when the user gives no disparity: all the rows are read, the last one is alone in its group and is not a point, an exception is
raised. -/
example : (Main.main (exWorldOf 1 9) (exUserEstBand none 3 6 2 1)).2 ≠ none := by
  intro h
  obtain ⟨⟨-, h⟩, -⟩ := (exEstBand_exactly none (-9997) 2 (.inl ⟨rfl, rfl, rfl⟩) 3 6 (by decide) 2 1 (by decide +kernel)).1 h
  obtain ⟨y, h1, h2, h3, h4⟩ := h 0 (by unfold NearRoi; decide) (fun x hx => hx.1) 4 (by unfold NearRoi; decide)
  unfold NearRoi at h1
  norm_num at h1 h2 h3 h4
  omega

/-- With null initial disparities there is no disparity around the ROI: an exception is raised. -/
example : (Main.main (exWorldOf 1 9) (exUserEstBand (some .null) 3 6 2 1)).2 ≠ none := by
  intro h
  obtain ⟨d, -, ⟨i, r, h1, -, -, h2⟩, -⟩ := C126_needs_disparities (exWorldOf 1 9) (exUserEstBand (some .null) 3 6 2 1) _ _ _ 9 3
    (by simp [exUserEstBand, exInput, exPipeline, exFlow, exEst, dict, Fields.append, Fields.wf, J.wf, Fields.keys])
    (exWorldOf_contract 1 9 (by decide)) rfl (by simp [exPipeline, dict, Fields.append, Fields.keys]) rfl
    (by simp [exPipeline, dict, Fields.append, Fields.get]) rfl h
  have hi : i = .null := by
    rcases h1 with ⟨f, e1, e2, -⟩ | ⟨e | ⟨f, e1, e2⟩, -⟩
    · simp [dict, Fields.append, Fields.get] at e1
      subst e1
      simpa [Fields.get] using e2.symm
    · simp [dict, Fields.append, Fields.get] at e
    · simp [dict, Fields.append, Fields.get] at e1
      subst e1
      simp [Fields.get] at e2
  subst hi
  rcases h2 with ⟨n, h2, -⟩ | ⟨s, h2, -⟩
  · rcases h2 with h2 | ⟨-, ⟨h2, -⟩ | ⟨h2, -⟩⟩ <;> simp at h2
  · simp at h2

end Verif.Props
