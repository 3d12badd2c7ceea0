import Verif.Props.MainRun
import Verif.Props.SavedZone

/-!
# What a successful `main` with a disparity step has done
-/

namespace Verif.Props

open Verif Verif.Config Verif.Machine Verif.ImgTools Verif.MatchingCost Verif.Disparity Verif.Estimation Verif.Run Verif.Main Verif.Spec
  Verif.Save Verif.Statistics

set_option linter.unusedSectionVars false

variable {K : Type} [Field K] [LinearOrder K] [IsStrictOrderedRing K] [FloorRing K]

theorem modifyIn_ok {f g : Fields} {k : String} {h : Fields → Fields} (e : modifyIn f k h = .ok g) :
    ∃ x, f.get k = some (.obj x) ∧ g = f.set k (.obj (h x)) := by
  unfold modifyIn at e
  split at e
  · simp at e
  · rename_i x hx
    simp only [Except.ok.injEq] at e
    exact ⟨x, hx, e.symm⟩
  · simp at e

/-- The completed configuration has the sections of the configuration, but for the estimation and the disparities. -/
structure Completes (cfg cfg3 : Fields) : Prop where
  others : ∀ k, k ≠ "input" → k ≠ "pipeline" → cfg3.get k = cfg.get k
  input : ∀ i, cfg.get "input" = some (.obj i) → ∃ i3, cfg3.get "input" = some (.obj i3) ∧
    ∀ k, k ≠ "col_disparity" → k ≠ "row_disparity" → i3.get k = i.get k
  pipeline : ∀ pl, cfg.get "pipeline" = some (.obj pl) → ∃ pl3, cfg3.get "pipeline" = some (.obj pl3) ∧
    ∀ k, k ≠ "estimation" → pl3.get k = pl.get k

theorem Completes.rfl (cfg : Fields) : Completes cfg cfg :=
  ⟨fun _ _ _ => Eq.refl _, fun i h => ⟨i, h, fun _ _ _ => Eq.refl _⟩, fun i h => ⟨i, h, fun _ _ => Eq.refl _⟩⟩

theorem completed_ok (w : World K) (steps : Pipeline (StepCfg K)) (l r : Img K) (cfg cfg3 : Fields)
    (h : completed w steps l r cfg = .ok cfg3) :
    Completes cfg cfg3 ∧ ((∀ a b s, lookup steps "estimation" ≠ .ok (.estimation a b s)) → cfg3 = cfg) := by
  unfold completed at h
  split at h
  · rename_i rr rc sf hl
    refine ⟨?_, fun hn => absurd hl (hn _ _ _)⟩
    obtain ⟨o, h1, h⟩ := bind_eq_ok h
    simp only [pure, Except.pure, Except.ok.injEq] at h
    subst h
    unfold estimationRun at h1
    obtain ⟨e, -, h1⟩ := bind_eq_ok h1
    obtain ⟨_, -, h1⟩ := bind_eq_ok h1
    obtain ⟨_, -, h1⟩ := bind_eq_ok h1
    obtain ⟨c, hc, h1⟩ := bind_eq_ok h1
    simp only [pure, Except.pure, Except.ok.injEq] at h1
    subst h1
    simp only
    unfold updateCfg at hc
    obtain ⟨c1, q1, hc⟩ := bind_eq_ok hc
    obtain ⟨i, hi, rfl⟩ := modifyIn_ok q1
    simp only [Fields.get_set, String.reduceEq, if_false] at hc
    cases hp : cfg.get "pipeline" with
    | none => rw [hp] at hc; simp at hc
    | some v =>
      rw [hp] at hc
      cases v with
      | obj pl =>
        simp only at hc
        obtain ⟨p1, q2, hc⟩ := bind_eq_ok hc
        simp only [pure, Except.pure, Except.ok.injEq] at hc
        obtain ⟨x, hx, rfl⟩ := modifyIn_ok q2
        subst hc
        refine ⟨fun k h1 h2 => ?_, fun i' hi' => ?_, fun pl' hpl => ?_⟩
        · rw [Fields.get_set, Fields.get_set, if_neg (Ne.symm h2), if_neg (Ne.symm h1)]
        · rw [hi, Option.some.injEq, J.obj.injEq] at hi'
          subst hi'
          refine ⟨_, by rw [Fields.get_set, Fields.get_set, if_neg (by decide), if_pos rfl], fun k h1 h2 => ?_⟩
          rw [Fields.get_set, Fields.get_set, if_neg (Ne.symm h2), if_neg (Ne.symm h1)]
        · rw [hp, Option.some.injEq, J.obj.injEq] at hpl
          subst hpl
          exact ⟨_, by rw [Fields.get_set, if_pos rfl], fun k h1 => by rw [Fields.get_set, if_neg (Ne.symm h1)]⟩
      | _ => simp at hc
  · simp only [Except.ok.injEq] at h
    subst h
    exact ⟨Completes.rfl _, fun _ => rfl⟩

theorem stepIn_ok {cfg pl g : Fields} {a b : J} {sr sc : Nat} (h1 : cfg.get "pipeline" = some (.obj pl))
    (h2 : pl.get "matching_cost" = some (.obj g)) (h3 : g.get "step" = some (.arr (.cons a (.cons b .nil))))
    (ha : IsInt true a sr) (hb : IsInt true b sc) : stepIn cfg = .ok (some (sr, sc)) := by
  unfold stepIn
  simp only [h1, h2, h3]
  rw [(asPair_iff _ (sr, sc)).2 ⟨a, b, rfl, ha, hb⟩]
  rfl

/-- The input section after the creation of the datasets. -/
theorem created_input {files : Datasets.Files K} {inp inp' : Fields} {roi : Option Roi} {est : Bool} {L R : Left K}
    (h : Datasets.createDatasets files inp roi est = .ok (inp', L, R)) :
    (∀ k, k ≠ "col_disparity" → k ≠ "row_disparity" → inp'.get k = inp.get k) ∧ (est = false → inp' = inp) ∧
    ∃ l r, inp.get "left" = some l ∧ inp.get "right" = some r ∧ files.read l roi = .ok L.img ∧ files.read r roi = .ok R.img := by
  have add : ∀ {img : Img K} {c w : J} {b : Bool} {X : Left K}, Datasets.addDisparityGrid files img c w b = .ok X → X.img = img := by
    intro img c w b X hX
    unfold Datasets.addDisparityGrid at hX
    obtain ⟨_, -, hX⟩ := bind_eq_ok hX
    obtain ⟨_, -, hX⟩ := bind_eq_ok hX
    obtain ⟨_, -, hX⟩ := bind_eq_ok hX
    obtain ⟨_, -, hX⟩ := bind_eq_ok hX
    simp only [pure, Except.pure, Except.ok.injEq] at hX
    subst hX
    rfl
  obtain ⟨i, hk, h⟩ : ∃ i, ((∀ k, k ≠ "col_disparity" → k ≠ "row_disparity" → i.get k = inp.get k) ∧ (est = false → i = inp)) ∧
      (do
        let l ← item i "left"
        let li ← files.read l roi
        let c ← item i "col_disparity"
        let r ← item i "row_disparity"
        let left ← Datasets.addDisparityGrid files li c r false
        let rg ← item i "right"
        let ri ← files.read rg roi
        let right ← Datasets.addDisparityGrid files ri c r true
        return (i, left, right)) = Except.ok (inp', L, R) := by
    unfold Datasets.createDatasets at h
    cases est with
    | false =>
      simp only [Bool.false_eq_true, if_false] at h
      obtain ⟨_, -, h⟩ := bind_eq_ok h
      obtain ⟨i, hi, h⟩ := bind_eq_ok h
      simp only [pure, Except.pure, Except.ok.injEq] at hi
      subst hi
      exact ⟨_, ⟨fun _ _ _ => rfl, fun _ => rfl⟩, h⟩
    | true =>
      simp only [if_true] at h
      obtain ⟨i, hi, h⟩ := bind_eq_ok h
      simp only [pure, Except.pure, Except.ok.injEq] at hi
      subst hi
      refine ⟨_, ⟨fun k h1 h2 => ?_, by simp⟩, h⟩
      rw [Fields.get_set, Fields.get_set, if_neg (Ne.symm h2), if_neg (Ne.symm h1)]
  obtain ⟨l, h1, h⟩ := bind_eq_ok h
  obtain ⟨li, h2, h⟩ := bind_eq_ok h
  obtain ⟨c, -, h⟩ := bind_eq_ok h
  obtain ⟨v, -, h⟩ := bind_eq_ok h
  obtain ⟨X, h5, h⟩ := bind_eq_ok h
  obtain ⟨r, h6, h⟩ := bind_eq_ok h
  obtain ⟨ri, h7, h⟩ := bind_eq_ok h
  obtain ⟨Y, h8, h⟩ := bind_eq_ok h
  simp only [pure, Except.pure, Except.ok.injEq, Prod.mk.injEq] at h
  obtain ⟨rfl, rfl, rfl⟩ := h
  refine ⟨hk.1, hk.2, l, r, ?_, ?_, by rw [add h5]; exact h2, by rw [add h8]; exact h7⟩
  · rw [← hk.1 "left" (by decide) (by decide)]; exact item_ok h1
  · rw [← hk.1 "right" (by decide) (by decide)]; exact item_ok h6

/-- The ROI of the run for the configuration of the user. -/
def RoiFor (user : Fields) : Option Roi → Prop
  | none => user.get "ROI" = none
  | some R => ∃ v, user.get "ROI" = some v ∧ RoiIs v R.rowFirst R.rowLast R.colFirst R.colLast ∧
      (0 ≤ R.rowFirst ∧ R.rowFirst ≤ R.rowLast ∧ 0 ≤ R.colFirst ∧ R.colFirst ≤ R.colLast) ∧
      (0 ≤ R.margins.left ∧ 0 ≤ R.margins.up ∧ 0 ≤ R.margins.right ∧ 0 ≤ R.margins.down)

theorem roiOk_bounds {bi : Bool} {v : J} {a b c d : Int} (h : RoiOk bi v) (h' : RoiIs v a b c d) : 0 ≤ a ∧ a ≤ b ∧ 0 ≤ c ∧ c ≤ d := by
  obtain ⟨f, r, q, rfl, -, e1, e2, ⟨fr, x, y, i, j, rfl, -, e3, e4, i1, i2, i3, i4⟩, fc, x', y', i', j', rfl, -, e3', e4', j1, j2, j3, j4⟩ := h
  have : RoiIs (.obj f) i j i' j' :=
    ⟨f, fr, fc, x, y, x', y', rfl, e1, e2, e3, e4, e3', e4', isInt_true i1, isInt_true i2, isInt_true j1, isInt_true j2⟩
  obtain ⟨rfl, rfl, rfl, rfl⟩ := RoiIs.unique this h'
  exact ⟨i3, i4, j3, j4⟩

/-- What a successful `main` with a disparity step has done. -/
structure Stages (w : World K) (user p0 : Fields) (out : List (Written K)) where
  m : Mach (Machine.Attrs J Margins)
  cfg : Fields
  pl : Fields
  cin : Fields
  inp : Fields
  roi : Option Roi
  inp' : Fields
  left : Left K
  right : Left K
  plan : Plan K
  maps : MapsData K
  leftJ : J
  files : Save.Files K (F K)
  after : OutDs K (F K)
  cfg1 : Fields
  cfg3 : Fields
  checkedAll : Config.checkConf w.env w.steps user (fresh .init) = (m, .ok cfg)
  input : checkInputSection w.env (getConfigInput user) (givesEstimation p0) = .ok cin
  inputIs : cin.get "input" = some (.obj inp)
  pipeline : checkPipelineJ w.steps user (fresh .init) = (m, .ok (.cons "pipeline" (.obj pl) .nil))
  inputIn : cfg.get "input" = some (.obj inp)
  pipelineIn : cfg.get "pipeline" = some (.obj pl)
  roiFor : RoiFor user roi
  roiIs : ∃ col row, inp.get "col_disparity" = some col ∧ inp.get "row_disparity" = some row ∧
    roiStep w m.data cfg col row = .ok (cfg1, roi, roi)
  cfg1Is : ∀ k, k ≠ "ROI" → cfg1.get k = cfg.get k
  completedIs : completed w plan.toPipeline left.img right.img (cfg1.set "input" (.obj inp')) = .ok cfg3
  datasets : Datasets.createDatasets w.files inp roi (pl.get "estimation").isSome = .ok (inp', left, right)
  checked : Datasets.checkDatasets w.check left right = .ok ()
  reads : Reads w m.data p0 pl plan
  run : expectedMaps w.run roi (refinementMargins m.data) left right.img plan = .ok maps
  leftIs : inp.get "left" = some leftJ
  saved : saveDataset ⟨⟨maps.row, maps.col, maps.rowMap.get, maps.colMap.get, maps.score.get⟩, w.crs leftJ, w.transform leftJ⟩
      ⟨roi, some (plan.cfg.stepRow, plan.cfg.stepCol)⟩ = .ok (files, after)
  outIs : out = .rasters files :: .report (reportDisparities w.sqrt maps.rowMap maps.colMap maps.invalid).1
    (reportDisparities w.sqrt maps.rowMap maps.colMap maps.invalid).2 :: finish w m.data cfg3

theorem main_stages (w : World K) (user p0 : Fields) (out : List (Written K)) (hw : user.wf) (hp : PandoraContract w)
    (hu : user.get "pipeline" = some (.obj p0)) (hd : "disparity" ∈ p0.keys) (h : Main.main w user = (out, none)) :
    Nonempty (Stages w user p0 out) := by
  obtain ⟨m, cfg, d, l, h1, h2, h3, h4⟩ := main_ok w user out h
  obtain ⟨p0', cin, pl', c1, c2, c3, -, c5, c6, c7, c8⟩ := checkConf_gets w.env w.steps user cfg _ m hw h1
  rw [hu, Option.some.injEq, J.obj.injEq] at c1
  subst c1
  obtain ⟨inp, col, row, cfg1, readRoi, roi, pl, inp', left, right, steps, maps, cfg3, l1, l2, l3, l4, l5, l6, l7, l8, l9, l10, rfl⟩ :=
    launch_ok w m cfg d h2
  obtain ⟨r1, r2, r3, r4⟩ := roiStep_ok w m.data cfg cfg1 col row readRoi roi l4
  subst r1
  rw [r2 "pipeline" (by decide), c8, Option.some.injEq, J.obj.injEq] at l5
  subst l5
  obtain ⟨p, rfl, hr⟩ := launch_plan w hp user p0 pl' m hw hu hd c3 steps l8
  obtain ⟨-, -, -, hm, -⟩ := pipeline_new w.steps user p0 pl' m hw hu c3
  have hrun : (Run.run w.run readRoi left right.img p.toPipeline
      (fresh { (Run.Attrs.init : Run.Attrs K) with margins := refinementMargins m.data })).2 = .ok maps := by
    have e1 : m.state = (fresh (Run.Attrs.init : Run.Attrs K)).state := by rw [hm]; rfl
    have e2 : m.transitions = (fresh (Run.Attrs.init : Run.Attrs K)).transitions := by rw [hm]; rfl
    rw [e1, e2] at l9
    exact l9
  obtain ⟨mp, rfl, hmp⟩ := run_ok_maps w.run readRoi left right.img p hr.named _ maps hrun
  obtain ⟨hcm, -⟩ := completed_ok w _ _ _ _ _ l10
  obtain ⟨ci, -, lj, rj, i1, i2, i3, i4⟩ := created_input l6
  obtain ⟨g, x, y, g1, g2, g3, g4⟩ := hr.checked
  -- the completed configuration
  obtain ⟨pl3, k1, k2⟩ := hcm.pipeline pl' (by rw [Fields.get_set, if_neg (by decide), r2 _ (by decide)]; exact c8)
  obtain ⟨i3', k3, k4⟩ := hcm.input inp' (by rw [Fields.get_set, if_pos rfl])
  have hstep : stepIn cfg3 = .ok (some (p.cfg.stepRow, p.cfg.stepCol)) :=
    stepIn_ok k1 (by rw [k2 _ (by decide)]; exact g1) g2 g3 g4
  have hleft : leftOf cfg3 = lj := by
    unfold leftOf
    rw [k3]
    simp only
    rw [k4 _ (by decide) (by decide), ci _ (by decide) (by decide), i1]
    rfl
  unfold saveMaps at h3
  simp only [hstep, hleft] at h3
  obtain ⟨st, q1, h3⟩ := bind_eq_ok h3
  simp only [Except.ok.injEq] at q1
  subst q1
  obtain ⟨o, q2, h3⟩ := bind_eq_ok h3
  simp only [pure, Except.pure, Except.ok.injEq] at h3
  subst h3
  refine ⟨⟨m, cfg, pl', cin, inp, readRoi, inp', left, right, p, mp, lj, o.1, o.2, cfg1, cfg3, h1, c2, by rw [← c6]; exact l1, c3, l1, c8,
    ?_, ⟨col, row, l2, l3, l4⟩, r2, l10, l6, l7, hr,
    hmp, i1, q2, by rw [h4]; rfl⟩⟩
  cases hR : user.get "ROI" with
  | none =>
    rw [(r3 (by rw [c7]; exact hR)).1]
    exact hR
  | some v =>
    obtain ⟨R, rfl, b1, b2⟩ := r4 v (by rw [c7]; exact hR)
    exact ⟨v, hR, b1, roiOk_bounds (c5 v hR) b1, b2⟩

end Verif.Props
