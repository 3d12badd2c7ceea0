import Verif.Props.MainSections
import Verif.Props.RunRange

/-!
# Inversion of `main`: the run of an accepted configuration
-/

namespace Verif.Props

open Verif Verif.Config Verif.Machine Verif.ImgTools Verif.MatchingCost Verif.Disparity Verif.Estimation Verif.Run Verif.Main Verif.Spec

set_option linter.unusedSectionVars false

variable {K : Type} [Field K] [LinearOrder K] [IsStrictOrderedRing K] [FloorRing K]

/-- The stages of a successful `main`. -/
theorem main_ok (w : World K) (user : Fields) (out : List (Written K)) (h : Main.main w user = (out, none)) :
    ∃ m cfg d l, Config.checkConf w.env w.steps user (fresh .init) = (m, .ok cfg) ∧ launch w m cfg = .ok d ∧ saveMaps w d = .ok l ∧
      out = l ++ finish w m.data d.cfg := by
  unfold Main.main at h
  split at h
  · simp at h
  · rename_i m cfg hc
    split at h
    · simp at h
    · rename_i d hd
      split at h
      · simp at h
      · rename_i l hl
        simp only [Prod.mk.injEq, and_true] at h
        exact ⟨m, cfg, d, l, hc, hd, hl, h.symm⟩

/-- The stages of a launch. -/
theorem launch_ok (w : World K) (m : Mach (Machine.Attrs J Margins)) (cfg : Fields) (d : Done K) (h : launch w m cfg = .ok d) :
    ∃ inp col row cfg1 readRoi roi pl inp' left right steps maps cfg3,
      cfg.get "input" = some (.obj inp) ∧ inp.get "col_disparity" = some col ∧ inp.get "row_disparity" = some row ∧
      roiStep w m.data cfg col row = .ok (cfg1, readRoi, roi) ∧ cfg1.get "pipeline" = some (.obj pl) ∧
      Datasets.createDatasets w.files inp readRoi (pl.get "estimation").isSome = .ok (inp', left, right) ∧
      Datasets.checkDatasets w.check left right = .ok () ∧ buildAll w m.data (toPipeline pl) = .ok steps ∧
      (Run.run w.run roi left right.img steps
        ⟨m.state, m.transitions, { (Run.Attrs.init : Run.Attrs K) with margins := refinementMargins m.data }⟩).2 = .ok maps ∧
      completed w steps left.img right.img (cfg1.set "input" (.obj inp')) = .ok cfg3 ∧ d = ⟨maps, roi, cfg3⟩ := by
  unfold launch at h
  obtain ⟨i, h1, h⟩ := bind_eq_ok h
  obtain ⟨inp, h2, h⟩ := bind_eq_ok h
  obtain ⟨col, h3, h⟩ := bind_eq_ok h
  obtain ⟨row, h4, h⟩ := bind_eq_ok h
  obtain ⟨⟨cfg1, readRoi, roi⟩, h5, h⟩ := bind_eq_ok h
  simp only at h
  obtain ⟨p, h6, h⟩ := bind_eq_ok h
  obtain ⟨pl, h7, h⟩ := bind_eq_ok h
  obtain ⟨⟨inp', left, right⟩, h8, h⟩ := bind_eq_ok h
  simp only at h
  obtain ⟨u, h9, h⟩ := bind_eq_ok h
  obtain ⟨steps, h10, h⟩ := bind_eq_ok h
  obtain ⟨maps, h11, h⟩ := bind_eq_ok h
  obtain ⟨cfg3, h12, h⟩ := bind_eq_ok h
  simp only [pure, Except.pure, Except.ok.injEq] at h
  have hd := h.symm
  rw [asObj_iff] at h2 h7
  subst h2 h7
  exact ⟨inp, col, row, cfg1, readRoi, roi, pl, inp', left, right, steps, maps, cfg3, item_ok h1, item_ok h3, item_ok h4, h5,
    item_ok h6, h8, h9, h10, h11, h12, hd⟩

/-- The ROI of a launch: the bounds are those of the configuration, the margins are not negative. -/
theorem roiStep_ok (w : World K) (a : Machine.Attrs J Margins) (cfg cfg1 : Fields) (col row : J) (readRoi roi : Option Roi)
    (h : roiStep w a cfg col row = .ok (cfg1, readRoi, roi)) :
    readRoi = roi ∧ (∀ k, k ≠ "ROI" → cfg1.get k = cfg.get k) ∧ (cfg.get "ROI" = none → roi = none ∧ cfg1 = cfg) ∧
    ∀ v, cfg.get "ROI" = some v → ∃ R, roi = some R ∧ RoiIs v R.rowFirst R.rowLast R.colFirst R.colLast ∧
      (0 ≤ R.margins.left ∧ 0 ≤ R.margins.up ∧ 0 ≤ R.margins.right ∧ 0 ≤ R.margins.down) := by
  unfold roiStep at h
  cases hr : cfg.get "ROI" with
  | none =>
    rw [hr] at h
    simp only [Except.ok.injEq, Prod.mk.injEq] at h
    obtain ⟨rfl, rfl, rfl⟩ := h
    exact ⟨rfl, fun _ _ => rfl, fun _ => ⟨rfl, rfl⟩, fun v hv => by simp at hv⟩
  | some v =>
    rw [hr] at h
    simp only at h
    obtain ⟨R0, h1, h⟩ := bind_eq_ok h
    obtain ⟨c, h2, h⟩ := bind_eq_ok h
    obtain ⟨r, h3, h⟩ := bind_eq_ok h
    obtain ⟨o, h4, h⟩ := bind_eq_ok h
    obtain ⟨f, h5, h⟩ := bind_eq_ok h
    simp only [pure, Except.pure, Except.ok.injEq, Prod.mk.injEq] at h
    obtain ⟨rfl, rfl, rfl⟩ := h
    have hb : RoiIs v R0.rowFirst R0.rowLast R0.colFirst R0.colLast := by
      unfold asRoi at h1
      obtain ⟨f', g1, h1⟩ := bind_eq_ok h1
      obtain ⟨c', g2, h1⟩ := bind_eq_ok h1
      obtain ⟨r', g3, h1⟩ := bind_eq_ok h1
      simp only [pure, Except.pure, Except.ok.injEq] at h1
      subst h1
      rw [asObj_iff] at g1
      have dir : ∀ {key : String} {p : Int × Int}, roiDir f' key = .ok p → ∃ g a b, f'.get key = some (.obj g) ∧
          g.get "first" = some a ∧ g.get "last" = some b ∧ IsInt true a p.1 ∧ IsInt true b p.2 := by
        intro key p hp
        unfold roiDir at hp
        obtain ⟨v1, q1, hp⟩ := bind_eq_ok hp
        obtain ⟨g, q2, hp⟩ := bind_eq_ok hp
        obtain ⟨a, q3, hp⟩ := bind_eq_ok hp
        obtain ⟨a', q4, hp⟩ := bind_eq_ok hp
        obtain ⟨b, q5, hp⟩ := bind_eq_ok hp
        obtain ⟨b', q6, hp⟩ := bind_eq_ok hp
        simp only [pure, Except.pure, Except.ok.injEq] at hp
        subst hp
        rw [asObj_iff] at q2
        subst q2
        exact ⟨g, a, b, item_ok q1, item_ok q3, item_ok q5, (asInt_iff _ _).1 q4, (asInt_iff _ _).1 q6⟩
      obtain ⟨g, a, b, e1, e2, e3, e4, e5⟩ := dir g2
      obtain ⟨g', a', b', e1', e2', e3', e4', e5'⟩ := dir g3
      exact ⟨f', g', g, a', b', a, b, g1, e1', e1, e2', e3', e2, e3, e4', e5', e4, e5⟩
    have ho : o.1 = o.2 ∧ o.2.rowFirst = R0.rowFirst ∧ o.2.rowLast = R0.rowLast ∧ o.2.colFirst = R0.colFirst ∧
        o.2.colLast = R0.colLast ∧
        (0 ≤ o.2.margins.left ∧ 0 ≤ o.2.margins.up ∧ 0 ≤ o.2.margins.right ∧ 0 ≤ o.2.margins.down) := by
      unfold getRoiProcessing at h4
      split at h4
      · simp at h4
      · simp at h4
      · simp only [Except.ok.injEq] at h4
        subst h4
        exact ⟨rfl, rfl, rfl, rfl, rfl, le_max_of_le_left (abs_nonneg _), le_max_of_le_left (abs_nonneg _),
          le_max_of_le_left (abs_nonneg _), le_max_of_le_left (abs_nonneg _)⟩
    obtain ⟨e0, e1, e2, e3, e4, e5⟩ := ho
    refine ⟨by rw [e0], fun k hk => ?_, fun h => by simp at h, ?_⟩
    · rw [Fields.get_set, if_neg (Ne.symm hk)]
    · intro v' hv'
      rw [Option.some.injEq] at hv'
      subst hv'
      exact ⟨_, rfl, by rw [e1, e2, e3, e4]; exact hb, e5⟩

/-- The zone of a ROI is unique. -/
theorem RoiIs.unique {v : J} {a b c d a' b' c' d' : Int} (h : RoiIs v a b c d) (h' : RoiIs v a' b' c' d') :
    a = a' ∧ b = b' ∧ c = c' ∧ d = d' := by
  obtain ⟨f, r, q, x1, x2, x3, x4, rfl, e2, e3, e4, e5, e6, e7, i1, i2, i3, i4⟩ := h
  obtain ⟨f', r', q', y1, y2, y3, y4, e1', e2', e3', e4', e5', e6', e7', j1, j2, j3, j4⟩ := h'
  simp only [J.obj.injEq] at e1'
  subst e1'
  rw [e2, Option.some.injEq, J.obj.injEq] at e2'
  rw [e3, Option.some.injEq, J.obj.injEq] at e3'
  subst e2' e3'
  rw [e4, Option.some.injEq] at e4'
  rw [e5, Option.some.injEq] at e5'
  rw [e6, Option.some.injEq] at e6'
  rw [e7, Option.some.injEq] at e7'
  subst e4' e5' e6' e7'
  exact ⟨IsInt.unique i1 j1, IsInt.unique i2 j2, IsInt.unique i3 j3, IsInt.unique i4 j4⟩

/-- The construction of the steps, one by one. -/
theorem buildAll_ok (w : World K) (a : Machine.Attrs J Margins) : ∀ (l : Pipeline J) (s : Pipeline (StepCfg K)),
    buildAll w a l = .ok s → List.Forall₂ (fun x y => x.1 = y.1 ∧ build w a x.1 x.2 = .ok y.2) l s
  | [], s, h => by
    simp only [buildAll, Except.ok.injEq] at h
    subst h
    exact .nil
  | (k, v) :: l, s, h => by
    unfold buildAll at h
    obtain ⟨c, h1, h⟩ := bind_eq_ok h
    obtain ⟨r, h2, h⟩ := bind_eq_ok h
    simp only [pure, Except.pure, Except.ok.injEq] at h
    subst h
    exact .cons ⟨rfl, h1⟩ (buildAll_ok w a l r h2)

/-- A dictionary of known keys as a list. -/
theorem toPipeline_eq : (f : Fields) → f.keys.Nodup → ∀ ks, f.keys = ks →
    toPipeline f = ks.map fun k => (k, (f.get k).getD .null)
  | .nil, _, ks, h => by subst h; rfl
  | .cons k v r, hn, ks, h => by
    subst h
    simp only [Fields.keys, List.nodup_cons] at hn
    simp only [toPipeline, Fields.keys, List.map_cons, Fields.get, if_true, Option.getD_some, List.cons.injEq, true_and]
    rw [toPipeline_eq r hn.2 _ rfl]
    apply List.map_congr_left
    intro x hx
    have : k ≠ x := fun e => hn.1 (e ▸ hx)
    rw [if_neg this]

/-- What the run reads in the pipeline of the user. -/
structure Reads (w : World K) (a : Machine.Attrs J Margins) (p0 pl' : Fields) (p : Plan K) : Prop where
  named : p.Named
  estimation : p0.get "estimation" = none ↔ p.estimation = none
  estimated : ∀ rr rc sf, p.estimation = some (rr, rc, sf) → ∃ v, pl'.get "estimation" = some v ∧
    buildEstimation w v = .ok (.estimation rr rc sf)
  matching : ∃ mc, p0.get "matching_cost" = some (.obj mc) ∧ StepIs mc p.cfg.stepRow p.cfg.stepCol
  steps : 1 ≤ p.cfg.stepRow ∧ 1 ≤ p.cfg.stepCol ∧ 0 < p.cfg.subpix ∧ CostContract p.cost
  built : ∃ v, pl'.get "matching_cost" = some v ∧ buildMatchingCost w v = .ok (.matchingCost p.cfg p.offset p.cost)
  checked : ∃ g x y, pl'.get "matching_cost" = some (.obj g) ∧ g.get "step" = some (.arr (.cons x (.cons y .nil))) ∧
    IsInt true x p.cfg.stepRow ∧ IsInt true y p.cfg.stepCol
  disparity : ∃ disp, p0.get "disparity" = some (.obj disp) ∧ InvalidIs disp p.invalid
  noRefinement : p0.get "refinement" = none → p.refinements = []
  refinement : ∀ v, p0.get "refinement" = some v → ∃ v' c, pl'.get "refinement" = some v' ∧ buildRefinement w a v' = .ok c ∧
    p.refinements = [("refinement", c)]

theorem buildEstimation_form {w : World K} {v : J} {s : StepCfg K} (h : buildEstimation w v = .ok s) :
    ∃ rr rc sf, s = .estimation rr rc sf := by
  unfold buildEstimation at h
  obtain ⟨_, -, h⟩ := bind_eq_ok h
  obtain ⟨_, -, h⟩ := bind_eq_ok h
  obtain ⟨_, -, h⟩ := bind_eq_ok h
  obtain ⟨_, -, h⟩ := bind_eq_ok h
  obtain ⟨_, -, h⟩ := bind_eq_ok h
  obtain ⟨_, -, h⟩ := bind_eq_ok h
  obtain ⟨_, -, h⟩ := bind_eq_ok h
  obtain ⟨_, -, h⟩ := bind_eq_ok h
  simp only [pure, Except.pure, Except.ok.injEq] at h
  exact ⟨_, _, _, h.symm⟩

theorem build_names (w : World K) (a : Machine.Attrs J Margins) (v : J) :
    build w a "estimation" v = buildEstimation w v ∧ build w a "matching_cost" v = buildMatchingCost w v ∧
    build w a "disparity" v = buildDisparity w v ∧ build w a "refinement" v = buildRefinement w a v := by
  have h1 : baseName "estimation" = "estimation" := by decide
  have h2 : baseName "matching_cost" = "matching_cost" := by decide
  have h3 : baseName "disparity" = "disparity" := by decide
  have h4 : baseName "refinement" = "refinement" := by decide
  refine ⟨?_, ?_, ?_, ?_⟩
  · unfold build; rw [h1]; rfl
  · unfold build; rw [h2]; rfl
  · unfold build; rw [h3]; rfl
  · unfold build; rw [h4]; rfl

/-- The steps built from an accepted pipeline with a disparity step are a plan. -/
theorem launch_plan (w : World K) (hp : PandoraContract w) (user p0 pl' : Fields) (m : Mach (Machine.Attrs J Margins)) (hw : user.wf)
    (hu : user.get "pipeline" = some (.obj p0)) (hd : "disparity" ∈ p0.keys)
    (h : checkPipelineJ w.steps user (fresh .init) = (m, .ok (.cons "pipeline" (.obj pl') .nil)))
    (steps : Pipeline (StepCfg K)) (hb : buildAll w m.data (toPipeline pl') = .ok steps) :
    ∃ p : Plan K, steps = p.toPipeline ∧ Reads w m.data p0 pl' p := by
  obtain ⟨hwf, hk, -, -, hg⟩ := pipeline_new w.steps user p0 pl' m hw hu h
  have hpw : p0.wf := Fields.wf_get user hw hu
  have hn : p0.keys.Nodup := Fields.wf_keys p0 hpw
  have hnone : ∀ k, p0.get k = none ↔ k ∉ p0.keys := Fields.get_eq_none p0
  have hsome : ∀ k, k ∈ p0.keys → ∃ v, p0.get k = some v := fun k hk => Option.isSome_iff_exists.1 ((Fields.get_isSome p0 k).2 hk)
  -- the sections
  have mcK : "matching_cost" ∈ p0.keys := by
    obtain ⟨e, h1 | h1 | h1 | h1⟩ := wellFormed_cases hwf hn <;> rw [h1] at hd ⊢ <;> cases e <;> simp at hd ⊢
  obtain ⟨vm, hvm⟩ := hsome _ mcK
  obtain ⟨vd, hvd⟩ := hsome _ hd
  obtain ⟨cm, vm', hm1, -, hm2, hm3⟩ := hg _ _ hvm
  obtain ⟨cd, vd', hd1, -, hd2, hd3⟩ := hg _ _ hvd
  have mcs : ∀ sc, buildMatchingCost w vm' = .ok sc → ∃ (c : Cfg) (off : Nat) (cost : Pandora.Cost K), sc = .matchingCost c off cost ∧
      (∃ mc, p0.get "matching_cost" = some (.obj mc) ∧ StepIs mc c.stepRow c.stepCol) ∧
      (1 ≤ c.stepRow ∧ 1 ≤ c.stepCol ∧ 0 < c.subpix ∧ CostContract cost) ∧
      ∃ g x y, pl'.get "matching_cost" = some (.obj g) ∧ g.get "step" = some (.arr (.cons x (.cons y .nil))) ∧
        IsInt true x c.stepRow ∧ IsInt true y c.stepCol := by
    intro sc hsc
    obtain ⟨f, g', n, sr, sc', a, b, off, cost, me, rfl, rfl, q3, q4, q5, q6, q7, q8, q9, rfl, q10⟩ := mc_section hp hm1 hm2 hsc
    refine ⟨_, _, _, rfl, ⟨f, hvm, ?_⟩, ⟨q6, q7, q8, q9⟩, g', a, b, hm3, q3, q4, q5⟩
    rcases q10 with q | ⟨q, rfl, rfl⟩
    · exact Or.inl ⟨a, b, q, q4, q5⟩
    · refine Or.inr ⟨q, ?_, ?_⟩
      · have := IsInt.unique q4 (Or.inl rfl); exact_mod_cast this
      · have := IsInt.unique q5 (Or.inl rfl); exact_mod_cast this
  have ds : ∀ sc, buildDisparity w vd' = .ok sc → ∃ x, sc = .disparity x ∧
      ∃ disp, p0.get "disparity" = some (.obj disp) ∧ InvalidIs disp x := by
    intro sc hsc
    obtain ⟨f, x, rfl, rfl, hx⟩ := disp_section (Fields.wf_get p0 hpw hvd) hd1 hd2 hsc
    exact ⟨x, rfl, f, hvd, hx⟩
  have hgm : (pl'.get "matching_cost").getD .null = vm' := by rw [hm3]; rfl
  have hgd : (pl'.get "disparity").getD .null = vd' := by rw [hd3]; rfl
  obtain ⟨e, hcase⟩ := wellFormed_cases hwf hn
  have hshape : ∃ r : Bool, p0.keys = (if e then ["estimation"] else []) ++ ["matching_cost", "disparity"] ++
      (if r then ["refinement"] else []) := by
    rcases hcase with h1 | h1 | h1 | h1
    · rw [h1] at hd; cases e <;> simp at hd
    · rw [h1] at hd; cases e <;> simp at hd
    · exact ⟨false, by rw [h1]; simp⟩
    · exact ⟨true, by rw [h1]; simp⟩
  obtain ⟨r, hshape⟩ := hshape
  have hpl := toPipeline_eq pl' (by rw [hk]; exact hn) _ (hk.trans hshape)
  rw [hpl] at hb
  have hF := buildAll_ok w m.data _ _ hb
  have hest : p0.get "estimation" = none ↔ e = false := by
    rw [hnone, hshape]; cases e <;> cases r <;> simp
  have href : p0.get "refinement" = none ↔ r = false := by
    rw [hnone, hshape]; cases e <;> cases r <;> simp
  have getsE : e = true → ∃ v', pl'.get "estimation" = some v' := by
    intro he
    obtain ⟨v, hv⟩ := hsome "estimation" (by rw [hshape, he]; simp)
    obtain ⟨-, v', -, -, -, h3⟩ := hg _ _ hv
    exact ⟨v', h3⟩
  have getsR : r = true → ∃ v', pl'.get "refinement" = some v' := by
    intro he
    obtain ⟨v, hv⟩ := hsome "refinement" (by rw [hshape, he]; simp)
    obtain ⟨-, v', -, -, -, h3⟩ := hg _ _ hv
    exact ⟨v', h3⟩
  -- the two middle steps and the refinement
  have tail : ∀ s, List.Forall₂ (fun (x : String × J) (y : String × StepCfg K) => x.1 = y.1 ∧ build w m.data x.1 x.2 = .ok y.2)
      ((["matching_cost", "disparity"] ++ (if r then ["refinement"] else [])).map fun k => (k, (pl'.get k).getD .null)) s →
      ∃ c off cost x refs, s = [("matching_cost", .matchingCost c off cost), ("disparity", .disparity x)] ++ refs ∧
        buildMatchingCost w vm' = .ok (.matchingCost c off cost) ∧ buildDisparity w vd' = .ok (.disparity x) ∧
        (r = false → refs = []) ∧ (r = true → ∃ v' c', pl'.get "refinement" = some v' ∧ buildRefinement w m.data v' = .ok c' ∧
          refs = [("refinement", c')]) := by
    intro s hs
    simp only [List.cons_append, List.nil_append, List.map_cons] at hs
    rcases hs with _ | ⟨⟨x1, x2⟩, hs⟩
    rename_i y1 s
    rcases hs with _ | ⟨⟨x3, x4⟩, hs⟩
    rename_i y2 s
    obtain ⟨k1, c1⟩ := y1
    obtain ⟨k2, c2⟩ := y2
    simp only at x1 x2 x3 x4
    subst x1 x3
    rw [(build_names w m.data _).2.1, hgm] at x2
    rw [(build_names w m.data _).2.2.1, hgd] at x4
    obtain ⟨c, off, cost, rfl, -⟩ := mcs c1 x2
    obtain ⟨x, rfl, -⟩ := ds c2 x4
    refine ⟨c, off, cost, x, s, rfl, x2, x4, fun hr => ?_, fun hr => ?_⟩
    · subst hr
      simp only [Bool.false_eq_true, if_false, List.map_nil] at hs
      cases hs
      rfl
    · subst hr
      simp only [if_true, List.map_cons, List.map_nil] at hs
      rcases hs with _ | ⟨⟨x5, x6⟩, hs⟩
      rename_i y3 s
      obtain ⟨k3, c3⟩ := y3
      cases hs
      simp only at x5 x6
      subst x5
      obtain ⟨v', hv'⟩ := getsR rfl
      rw [(build_names w m.data _).2.2.2, hv'] at x6
      exact ⟨v', c3, hv', x6, rfl⟩
  -- assembling
  have finish : ∀ (est : Option (Int × Int × Nat)) (c : Cfg) (off : Nat) (cost : Pandora.Cost K) (x : F K)
      (refs : List (String × StepCfg K)), (est = none ↔ e = false) → (∀ rr rc sf, est = some (rr, rc, sf) → ∃ v,
        pl'.get "estimation" = some v ∧ buildEstimation w v = .ok (.estimation rr rc sf)) →
      buildMatchingCost w vm' = .ok (.matchingCost c off cost) → buildDisparity w vd' = .ok (.disparity x) →
      (r = false → refs = []) → (r = true → ∃ v' c', pl'.get "refinement" = some v' ∧ buildRefinement w m.data v' = .ok c' ∧
          refs = [("refinement", c')]) → Reads w m.data p0 pl' ⟨est, c, off, cost, x, refs⟩ := by
    intro est c off cost x refs he1 he2 hb1 hb2 hr1 hr2
    obtain ⟨c', off', cost', ec, y1, y2, y3⟩ := mcs _ hb1
    simp only [StepCfg.matchingCost.injEq] at ec
    obtain ⟨rfl, rfl, rfl⟩ := ec
    obtain ⟨x', ex, y4⟩ := ds _ hb2
    simp only [StepCfg.disparity.injEq] at ex
    subst ex
    refine ⟨?_, hest.trans he1.symm, he2, y1, y2, ⟨vm', hm3, hb1⟩, y3, y4, fun h => hr1 (href.1 h), fun v hv => hr2 ?_⟩
    · cases r with
      | false => rw [hr1 rfl]; exact ⟨by simp, by simp⟩
      | true =>
        obtain ⟨v', c', -, -, e⟩ := hr2 rfl
        rw [e]
        refine ⟨fun q hq => ?_, by simp⟩
        simp only [List.mem_singleton] at hq
        subst hq
        show stepOf "refinement" = "refinement"
        decide
    · cases r with
      | false => rw [href.2 rfl] at hv; simp at hv
      | true => rfl
  cases e with
  | false =>
    simp only [Bool.false_eq_true, if_false, List.nil_append] at hF
    obtain ⟨c, off, cost, x, refs, rfl, hb1, hb2, hr1, hr2⟩ := tail _ hF
    exact ⟨⟨none, c, off, cost, x, refs⟩, rfl, finish none c off cost x refs (by simp) (by simp) hb1 hb2 hr1 hr2⟩
  | true =>
    simp only [if_true, List.cons_append, List.nil_append, List.map_cons] at hF
    rcases hF with _ | ⟨⟨x1, x2⟩, hF⟩
    rename_i y s
    obtain ⟨k, ce⟩ := y
    simp only at x1 x2
    subst x1
    obtain ⟨v', hv'⟩ := getsE rfl
    rw [(build_names w m.data _).1, hv', Option.getD_some] at x2
    obtain ⟨rr, rc, sf, rfl⟩ := buildEstimation_form x2
    obtain ⟨c, off, cost, x, refs, rfl, hb1, hb2, hr1, hr2⟩ := tail s (by simpa using hF)
    refine ⟨⟨some (rr, rc, sf), c, off, cost, x, refs⟩, rfl, finish (some (rr, rc, sf)) c off cost x refs (by simp) ?_ hb1 hb2 hr1 hr2⟩
    intro a b s h
    simp only [Option.some.injEq, Prod.mk.injEq] at h
    obtain ⟨rfl, rfl, rfl⟩ := h
    exact ⟨v', hv', x2⟩

end Verif.Props
