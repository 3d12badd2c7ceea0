import Verif.Spec.Wider
import Verif.Props.RoiRasters

/-!
# C92: larger intervals never worsen the score
-/

namespace Verif.Props

open Verif Verif.Config Verif.Machine Verif.ImgTools Verif.MatchingCost Verif.Disparity Verif.Estimation Verif.Run Verif.Main Verif.Spec
  Verif.Save Verif.Statistics

set_option linter.unusedSectionVars false

variable {K : Type} [Field K] [LinearOrder K] [IsStrictOrderedRing K] [FloorRing K]

/-- The section of an image is completed from the section of the user only. -/
theorem input_side {user cfg uf cf : Fields} (hw : user.wf) (h : updateConf defaultInput user = .ok cfg)
    (hcf : cfg.get "input" = some (.obj cf)) (hu : user.get "input" = some (.obj uf)) {side : String} {v : J} (hv : uf.get side = some v) :
    ∃ v', updateVal ((Verif.Props.mk [("left", .obj (Verif.Props.mk [("nodata", .int (-9999)), ("mask", .null)])),
      ("right", .obj (Verif.Props.mk [("nodata", .int (-9999)), ("mask", .null)]))]).get side) v = .ok v' ∧ cf.get side = some v' := by
  obtain ⟨w', h1, h2⟩ := (updateConf_get user defaultInput cfg (Fields.wf_keys user hw) h "input").2 _ hu
  rw [hcf, Option.some.injEq] at h2
  subst h2
  have hdef : defaultInput.get "input" = some (.obj (Verif.Props.mk [("left", .obj (Verif.Props.mk [("nodata", .int (-9999)), ("mask", .null)])),
    ("right", .obj (Verif.Props.mk [("nodata", .int (-9999)), ("mask", .null)]))])) := rfl
  rw [hdef] at h1
  simp only [updateVal] at h1
  generalize Verif.Props.mk [("left", .obj (Verif.Props.mk [("nodata", .int (-9999)), ("mask", .null)])),
    ("right", .obj (Verif.Props.mk [("nodata", .int (-9999)), ("mask", .null)]))] = df at h1 ⊢
  cases hup : updateConf df uf with
  | error e => rw [hup] at h1; simp [Except.map] at h1
  | ok g =>
    rw [hup] at h1
    simp only [Except.map, Except.ok.injEq, J.obj.injEq] at h1
    subst h1
    have huf : uf.wf := Fields.wf_get user hw hu
    exact (updateConf_get uf df g (Fields.wf_keys uf huf) hup side).2 v hv

section
variable {w : World K} {user user' p0 p0' : Fields} {out out' : List (Written K)}

/-- Two executions whose users give the same section for an image complete it in the same way. -/
theorem Stages.same_side (s : Stages w user p0 out) (s' : Stages w user' p0' out') (hw : user.wf) (hw' : user'.wf)
    (he : p0.get "estimation" = none) (he' : p0'.get "estimation" = none) {inp inp' : Fields} (hi : user.get "input" = some (.obj inp))
    (hi' : user'.get "input" = some (.obj inp')) {side : String} {v : J} (hv : inp.get side = some v) (hv' : inp'.get side = some v) :
    s.inp.get side = s'.inp.get side := by
  have key : ∀ {u p : Fields} {o : List (Written K)} {i : Fields} (t : Stages w u p o), u.wf → p.get "estimation" = none →
      u.get "input" = some (.obj i) → i.get side = some v →
      ∃ v', updateVal ((Verif.Props.mk [("left", .obj (Verif.Props.mk [("nodata", .int (-9999)), ("mask", .null)])),
      ("right", .obj (Verif.Props.mk [("nodata", .int (-9999)), ("mask", .null)]))]).get side) v = .ok v' ∧ t.inp.get side = some v' := by
    intro u p o i t hu hp hi hs
    have hge : givesEstimation p = false := by unfold givesEstimation; rw [hp]
    have hin := t.input
    rw [hge] at hin
    obtain ⟨c, c1, c2, -, -⟩ := checkInputSection_ok hin
    simp only [Bool.false_eq_true, if_false] at c2
    subst c2
    exact input_side (getConfigInput_wf hu) c1 t.inputIs (by rw [getConfigInput_get]; exact hi) hs
  obtain ⟨a, a1, a2⟩ := key s hw he hi hv
  obtain ⟨b, b1, b2⟩ := key s' hw' he' hi' hv'
  rw [a1, Except.ok.injEq] at b1
  rw [a2, b2, b1]

end

theorem cost_wider {hw : Nat} {ker : List (F K × F K) → F K} {left right : Img K} {gmin gmax gmin' gmax' : Arr2 Int} {a b : Nat} {d : K}
    (h : (gmin.get a b : K) ≤ d ∧ d ≤ (gmax.get a b : K)) (h' : (gmin'.get a b : K) ≤ d ∧ d ≤ (gmax'.get a b : K)) :
    Pandora.windowCost hw ker left right gmin gmax a b d = Pandora.windowCost hw ker left right gmin' gmax' a b d := by
  have : Pandora.windowOk hw left right gmin gmax a b d ↔ Pandora.windowOk hw left right gmin' gmax' a b d := by
    unfold Pandora.windowOk
    simp only [h, h', and_self]
  unfold Pandora.windowCost
  by_cases ok : Pandora.windowOk hw left right gmin gmax a b d
  · rw [if_pos ok, if_pos (this.1 ok)]
  · rw [if_neg ok, if_neg fun q => ok (this.2 q)]

/-- C92: larger intervals never worsen the score. Two successful executions on the same full images, without estimation nor refinement,
with window costs: at each pixel they share, when the intervals of the first are in those of the second, the first gives the invalid value
three times or a score which is not better than that of the second. -/
theorem C92_wider_never_worse (w : World K) (user user' p0 p0' mc mc' inp inp' : Fields) (out out' : List (Written K)) (H W : Nat)
    (dRow dCol dRow' dCol' : Disp) (sr sc sr' sc' : Nat) (invalid invalid' : F K) (n hw : Nat) (me : Measure)
    (ker : List (F K × F K) → F K) (wf : user.wf) (wf' : user'.wf)
    (hdisk : DiskContract w H W) (hpan : PandoraContract w) (hkeeps : PandoraKeeps w.pandora)
    (same : SameImages w user user' p0 p0' mc mc' inp inp' n me (Pandora.windowCost hw ker))
    (ask : Asks w user H W dRow dCol 0 ((H : Int) - 1) 0 ((W : Int) - 1) sr sc invalid)
    (ask' : Asks w user' H W dRow' dCol' 0 ((H : Int) - 1) 0 ((W : Int) - 1) sr' sc' invalid')
    (hr : Nested dRow dRow' H W) (hc : Nested dCol dCol' H W)
    (h : Main.main w user = (out, none)) (h' : Main.main w user' = (out', none)) :
    ∃ files rest files' rest', out = .rasters files :: rest ∧ out' = .rasters files' :: rest' ∧
      ∀ i j i' j', i < files.row.h → j < files.row.w → i' < files'.row.h → j' < files'.row.w → i * sr = i' * sr' → j * sc = j' * sc' →
        (files.row.values i j = invalid ∧ files.col.values i j = invalid ∧ files.score.values i j = invalid) ∨
        AtLeastAsGood me (files'.score.values i' j') (files.score.values i j) := by
  have hpd : ∀ {u p : Fields} {dR dC : Disp} {a b c d : Int} {x y : Nat} {iv : F K}, u.get "pipeline" = some (.obj p) →
      Asks w u H W dR dC a b c d x y iv → "disparity" ∈ p.keys := by
    intro u p dR dC a b c d x y iv hp hk
    obtain ⟨pl, mc, disp, a1, a2, a3, -⟩ := hk.steps
    rw [hp, Option.some.injEq, J.obj.injEq] at a1
    subst a1
    exact (Fields.get_isSome _ _).1 (by rw [a3]; rfl)
  obtain ⟨hu, hu'⟩ := same.pipelines
  obtain ⟨he, he'⟩ := same.noEstimation
  obtain ⟨s⟩ := main_stages w user p0 out wf hpan hu (hpd hu ask) h
  obtain ⟨s'⟩ := main_stages w user' p0' out' wf' hpan hu' (hpd hu' ask') h'
  obtain ⟨-, dRow1, dCol1, gmin, gmax, -, i1, i2, -, i4, i5, -, -, -, i6⟩ :=
    s.winner hdisk hkeeps wf hu ask.zone (by omega) same.noRefinement.1 same.costs.1 same.matcher.1
  obtain ⟨-, dRow2, dCol2, gmin', gmax', -, i1', i2', -, i4', i5', -, -, -, i6'⟩ :=
    s'.winner hdisk hkeeps wf' hu' ask'.zone (by omega) same.noRefinement.2 same.costs.2 same.matcher.2
  obtain ⟨j1, j2⟩ := i1 he
  obtain ⟨j1', j2'⟩ := i1' he'
  obtain ⟨⟨rfl, rfl⟩, ⟨rfl, rfl⟩, rfl⟩ := s.asked wf hu he ask j1 j2
  obtain ⟨⟨rfl, rfl⟩, ⟨rfl, rfl⟩, rfl⟩ := s'.asked wf' hu' he' ask' j1' j2'
  have hnone : ∀ {u p : Fields} {o : List (Written K)} (t : Stages w u p o), u.get "ROI" = none → t.roi = none := by
    intro u p o t hR
    have r1 := t.roiFor
    cases hx : t.roi with
    | none => rfl
    | some R =>
      rw [hx] at r1
      obtain ⟨v, hv, -⟩ := r1
      rw [hR] at hv; simp at hv
  have n1 := hnone s same.full.1
  have n2 := hnone s' same.full.2
  -- the same images
  obtain ⟨vl, v1, v2⟩ := same.left
  obtain ⟨vr, v3, v4⟩ := same.right
  obtain ⟨-, -, lj, rj, l1, l2, l3, l4⟩ := created_input s.datasets
  obtain ⟨-, -, lj', rj', l1', l2', l3', l4'⟩ := created_input s'.datasets
  rw [← s.same_side s' wf wf' he he' same.inputs.1 same.inputs.2 v1 v2, l1, Option.some.injEq] at l1'
  rw [← s.same_side s' wf wf' he he' same.inputs.1 same.inputs.2 v3 v4, l2, Option.some.injEq] at l2'
  subst l1' l2'
  rw [n1] at l3 l4 i2
  rw [n2, l3, Except.ok.injEq] at l3'
  rw [n2, l4, Except.ok.injEq] at l4'
  obtain ⟨f1, f2, f3, f4, -⟩ := i2
  rw [← l3'] at i4' i5' i6'
  rw [← l4'] at i6'
  refine ⟨s.files, _, s'.files, _, s.outIs, s'.outIs, fun i j i' j' hi hj hi' hj' e1 e2 => ?_⟩
  obtain ⟨⟨a, b, ha, hb, ea, eb⟩, key⟩ := i6 i hi j hj
  have key' := (i6' i' hi' j' hj').2
  have e1' : (i' : Int) * s'.plan.cfg.stepRow = (i : Int) * s.plan.cfg.stepRow := by exact_mod_cast e1.symm
  have e2' : (j' : Int) * s'.plan.cfg.stepCol = (j : Int) * s.plan.cfg.stepCol := by exact_mod_cast e2.symm
  rw [e1', e2'] at key'
  rw [f1] at ea
  rw [f2] at eb
  have ta : (0 + (i : Int) * s.plan.cfg.stepRow - s.left.img.row0).toNat = a := by omega
  have tb : (0 + (j : Int) * s.plan.cfg.stepCol - s.left.img.col0).toNat = b := by omega
  rw [ta, tb] at key key'
  have hra : 0 + (i : Int) * s.plan.cfg.stepRow = a := by omega
  have hcb : 0 + (j : Int) * s.plan.cfg.stepCol = b := by omega
  rw [hra, hcb] at key key'
  have g1 := i4 a ha b hb
  have g2 := i5 a ha b hb
  have g1' := i4' a ha b hb
  have g2' := i5' a ha b hb
  rw [f1, f2, zero_add, zero_add] at g1 g2 g1' g2'
  obtain ⟨r1, r2⟩ := hr a b (by omega) (by omega) (by omega) (by omega)
  obtain ⟨c1, c2⟩ := hc a b (by omega) (by omega) (by omega) (by omega)
  have wide : ∀ x y : K, AskedPair dRow dCol n a b x y → AskedPair dRow' dCol' n a b x y := by
    rintro x y ⟨q1, ⟨q2, q3⟩, q4, q5⟩
    exact ⟨q1, ⟨le_trans (Int.cast_le.2 r1) q2, le_trans q3 (Int.cast_le.2 r2)⟩, le_trans (Int.cast_le.2 c1) q4,
      le_trans q5 (Int.cast_le.2 c2)⟩
  have costs : ∀ x y : K, AskedPair dRow dCol n a b x y →
      Pandora.windowCost hw ker s.left.img (slabImg w.run.zoom s.right.img n x) gmin gmax a b y =
      Pandora.windowCost hw ker s.left.img (slabImg w.run.zoom s.right.img n x) gmin' gmax' a b y := by
    intro x y hxy
    obtain ⟨-, -, q4', q5'⟩ := wide x y hxy
    obtain ⟨-, -, q4, q5⟩ := hxy
    refine cost_wider ⟨?_, ?_⟩ ⟨?_, ?_⟩
    · rw [g1]; exact q4
    · rw [g2]; exact q5
    · rw [g1']; exact q4'
    · rw [g2']; exact q5'
  by_cases hex : ∃ x y, AskedPair dRow dCol n a b x y ∧
      Pandora.windowCost hw ker s.left.img (slabImg w.run.zoom s.right.img n x) gmin gmax a b y ≠ .nan
  · right
    obtain ⟨⟨q1, x, y, q2, q3⟩, -⟩ := key.best hex
    rw [costs x y q2] at q3
    exact (key'.best ⟨x, y, wide x y q2, by rw [q3]; exact q1⟩).2 _ ⟨q1, x, y, wide x y q2, q3⟩
  · left
    push Not at hex
    exact key.invalid hex

/-! ### Non-vacuity -/

theorem exUserAllW_ok : Main.main exWorldW (exUserWhole 1 1 none (some (.int 0))) = ((Main.main exWorldW (exUserWhole 1 1 none (some (.int 0)))).1, none) := by
  have : (Main.main exWorldW (exUserWhole 1 1 none (some (.int 0)))).2 = none := by
    obtain ⟨m, cfg, h⟩ := accepted_ok (w := exWorldOf 1) (user := exUserWhole 1 1 none (some (.int 0))) (by decide +kernel)
    refine C81_accepted_runs_partial exWorldW _ _ _ cfg m 5 3 0 4 0 2 1 1 exUserAll_wf exWorldW_contract rfl (by decide) rfl
      (.inl ⟨_, _, rfl, .inl rfl, .inl rfl⟩) (.inr ⟨rfl, rfl, rfl, rfl, rfl⟩) (by decide) ?_ ?_ (.inl ⟨rfl, rfl⟩) h
    · intro he
      exact absurd rfl he
    · intro v hv
      have : (exPipeline none 1 1 none).get "refinement" = none := by decide
      exact absurd (this.symm.trans hv) (by simp)
  rw [← this]

theorem exUserAllW_asks : Asks exWorldW (exUserWhole 1 1 none (some (.int 0))) 5 3 ⟨.const 0, 1⟩ ⟨.const 0, 1⟩ 0 (((5 : Nat) : Int) - 1) 0
    (((3 : Nat) : Int) - 1) 1 1 .nan :=
  ⟨⟨_, rfl, ⟨_, _, _, rfl, rfl, rfl, .inl rfl, .inl ⟨_, .inl rfl, rfl⟩⟩, ⟨_, _, _, rfl, rfl, rfl, .inl rfl, .inl ⟨_, .inl rfl, rfl⟩⟩⟩,
    .inr ⟨rfl, rfl, rfl, rfl, rfl⟩,
    ⟨_, _, _, rfl, rfl, rfl, .inl ⟨_, _, rfl, .inl rfl, .inl rfl⟩, .inl ⟨_, rfl, .inr (.inr (.inl ⟨rfl, rfl⟩))⟩⟩⟩

/-- The hypotheses hold: one displacement, against nine. -/
example := C92_wider_never_worse exWorldW exUserFull (exUserWhole 1 1 none (some (.int 0))) _ _ _ _ _ _ _ _ 5 3 _ _ _ _ 1 1 1 1 .nan .nan 1 1 .min sad
  exUserFull_wf exUserAll_wf exWorldW_contract.disk exWorldW_contract.pandora exWorldW_contract.keeps
  ⟨⟨rfl, rfl⟩, ⟨_, rfl, rfl⟩, ⟨_, rfl, rfl⟩, ⟨rfl, rfl⟩, ⟨rfl, rfl⟩, ⟨rfl, rfl⟩, ⟨rfl, rfl⟩, ⟨rfl, rfl⟩, exW_matcher, exW_matcher⟩
  exUserFull_asks exUserAllW_asks (fun _ _ _ _ _ _ => by simp [initAt]) (fun _ _ _ _ _ _ => by simp [initAt]) exUserFull_ok exUserAllW_ok

end Verif.Props
