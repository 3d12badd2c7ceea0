import Verif.Props.FlowMain

/-!
# C98: an execution with an optical flow against the same execution without refinement
-/

namespace Verif.Props

open Verif Verif.Config Verif.Machine Verif.ImgTools Verif.MatchingCost Verif.Disparity Verif.Estimation Verif.Run Verif.Main Verif.Spec
  Verif.Save Verif.Statistics

set_option linter.unusedSectionVars false

variable {K : Type} [Field K] [LinearOrder K] [IsStrictOrderedRing K] [FloorRing K]

/-- C98: two successful executions on the same full images, without estimation, with window costs and the same intervals, one with an optical
flow and the other one without refinement, whatever their steps: at each pixel they share the scores are equal. Each disparity of the first is
invalid, NaN, or at most `it` away from the one of the second. When there are points of the maps at least half a window away on each side, the
pair is given by the trajectory of the windows from the pair of the second; otherwise it is invalid. -/
theorem C98_flow_against_not (w : World K) (user user' p0 p0' mc mc' inp inp' f l r : Fields) (out out' : List (Written K)) (H W : Nat)
    (dRow dCol : Disp) (sr sc sr' sc' : Nat) (invalid : F K) (n it half hw : Nat) (me : Measure)
    (ker : List (F K × F K) → F K) (wf : user.wf) (wf' : user'.wf)
    (hdisk : DiskContract w H W) (hpan : PandoraContract w) (hkeeps : PandoraKeeps w.pandora)
    (hoff : ∀ g v n, g.get "window_size" = some v → IsInt true v n → w.offset (.obj g) = ((n - 1) / 2).toNat)
    (same : FlowAndNot w user user' p0 p0' mc mc' inp inp' f n it half me (Pandora.windowCost hw ker))
    (hleft : inp.get "left" = some (.obj l)) (hright : inp.get "right" = some (.obj r))
    (ask : Asks w user H W dRow dCol 0 ((H : Int) - 1) 0 ((W : Int) - 1) sr sc invalid)
    (ask' : Asks w user' H W dRow dCol 0 ((H : Int) - 1) 0 ((W : Int) - 1) sr' sc' invalid)
    (h : Main.main w user = (out, none)) (h' : Main.main w user' = (out', none)) :
    ∃ files rest files' rest' left right, out = .rasters files :: rest ∧ out' = .rasters files' :: rest' ∧
      ImagesRead w l r none left right ∧
      ∀ i j i' j', i < files.row.h → j < files.row.w → i' < files'.row.h → j' < files'.row.w → i * sr = i' * sr' → j * sc = j' * sc' →
        ∀ R C : Int, R = i * sr → C = j * sc →
        files.score.values i j = files'.score.values i' j' ∧
        NearPair it invalid (files'.row.values i' j') (files'.col.values i' j') (files.row.values i j) (files.col.values i j) ∧
        (InnerPoint 0 H sr half R ∧ InnerPoint 0 W sc half C →
          FlowPixel w.run.flow half it left right R C (initAt dRow R C - dRow.range) (initAt dRow R C + dRow.range)
            (initAt dCol R C - dCol.range) (initAt dCol R C + dCol.range) invalid (files'.row.values i' j') (files'.col.values i' j')
            (files.row.values i j) (files.col.values i j)) ∧
        (¬ (InnerPoint 0 H sr half R ∧ InnerPoint 0 W sc half C) →
          files.row.values i j = invalid ∧ files.col.values i j = invalid) := by
  have hpd : ∀ {u p : Fields} {dR dC : Disp} {a b c d : Int} {x y : Nat} {iv : F K}, u.get "pipeline" = some (.obj p) →
      Asks w u H W dR dC a b c d x y iv → "disparity" ∈ p.keys := by
    intro u p dR dC a b c d x y iv hp hk
    obtain ⟨pl, mc, disp, a1, a2, a3, -⟩ := hk.steps
    rw [hp, Option.some.injEq, J.obj.injEq] at a1
    subst a1
    exact (Fields.get_isSome _ _).1 (by rw [a3]; rfl)
  obtain ⟨hu, hu'⟩ := same.pipelines
  obtain ⟨he, he'⟩ := same.noEstimation
  obtain ⟨s⟩ := main_stages w user p0 out wf hpan hu (hpd hu ask) h
  obtain ⟨s'⟩ := main_stages w user' p0' out' wf' hpan hu' (hpd hu' ask') h'
  obtain ⟨-, dRow1, dCol1, half', it', ml, mr, gmin, gmax, -, k0, k1, -, i1, i2, -, -, i4, i5, i6⟩ :=
    s.flowWinner hdisk hkeeps hoff wf hu ask.zone (by omega) same.refinement.1 same.method same.costs.1 same.matcher.1
  obtain ⟨-, dRow2, dCol2, gmin', gmax', -, i1', i2', -, i4', i5', -, -, -, i6'⟩ :=
    s'.winner hdisk hkeeps wf' hu' ask'.zone (by omega) same.refinement.2 same.costs.2 same.matcher.2
  obtain ⟨j1, j2⟩ := i1 he
  obtain ⟨j1', j2'⟩ := i1' he'
  obtain ⟨⟨rfl, rfl⟩, ⟨rfl, rfl⟩, ei⟩ := s.asked wf hu he ask j1 j2
  obtain ⟨⟨rfl, rfl⟩, ⟨rfl, rfl⟩, ei'⟩ := s'.asked wf' hu' he' ask' j1' j2'
  rw [← ei] at i6
  rw [← ei'] at i6'
  obtain rfl := flow_iterations_unique same.iterations k1
  obtain rfl := half_unique same.window k0
  obtain ⟨n1, n2, l1, l2⟩ := same_images s s' wf wf' he he' same.inputs.1 same.inputs.2 same.left same.right same.full.1 same.full.2
  rw [n1] at i2
  obtain ⟨f1, f2, f3, f4, -⟩ := i2
  rw [l1] at i4' i5' i6'
  rw [l2] at i6'
  have himg := s.images wf same.inputs.1 hleft hright
  rw [n1] at himg
  refine ⟨s.files, _, s'.files, _, s.left.img, s.right.img, s.outIs, s'.outIs, himg, fun i j i' j' hi hj hi' hj' e1 e2 R C hR hC => ?_⟩
  obtain ⟨⟨a, b, ha, hb, ea, eb⟩, r0, c0, key, near, -, inner, outer⟩ := i6 i hi j hj R C (by rw [hR, zero_add]) (by rw [hC, zero_add])
  have key' := (i6' i' hi' j' hj').2
  have e1' : (0 : Int) + (i' : Int) * s'.plan.cfg.stepRow = R := by rw [hR, zero_add]; exact_mod_cast e1.symm
  have e2' : (0 : Int) + (j' : Int) * s'.plan.cfg.stepCol = C := by rw [hC, zero_add]; exact_mod_cast e2.symm
  rw [e1', e2'] at key'
  have g1 := i4 a ha b hb
  have g2 := i5 a ha b hb
  have g1' := i4' a ha b hb
  have g2' := i5' a ha b hb
  rw [← ea, ← eb] at g1 g2 g1' g2'
  have ta : (R - s.left.img.row0).toNat = a := by omega
  have tb : (C - s.left.img.col0).toNat = b := by omega
  rw [ta, tb] at key key'
  have costs : ∀ x y : K, (((initAt dCol R C - dCol.range : Int) : K) ≤ y ∧ y ≤ ((initAt dCol R C + dCol.range : Int) : K)) →
      Pandora.windowCost hw ker s.left.img (slabImg w.run.zoom s.right.img n x) gmin gmax a b y =
      Pandora.windowCost hw ker s.left.img (slabImg w.run.zoom s.right.img n x) gmin' gmax' a b y := by
    intro x y ⟨q4, q5⟩
    refine cost_wider ⟨?_, ?_⟩ ⟨?_, ?_⟩
    · rw [g1]; exact le_trans (Int.cast_le.2 (by omega)) q4
    · rw [g2]; exact le_trans q5 (Int.cast_le.2 (by omega))
    · rw [g1']; exact q4
    · rw [g2']; exact q5
  have key2 := best_congr (fun x y q => costs x y q.2.2) key
  obtain ⟨x1, x2, x3⟩ := BestPair.unique key2 key'
  rw [x1, x2] at near inner
  rw [f1, f2, f3, f4] at inner outer
  exact ⟨x3, near, inner, outer⟩

/-! ### Non-vacuity -/

/-- Windows of three pixels with a window cost. -/
noncomputable def exWorldF : World ℚ := { exWorldOf 1 with cost := fun _ => Pandora.windowCost 1 sad }

theorem exWorldF_contract : RunContract exWorldF 5 3 := by
  obtain ⟨⟨d1, d2, d3, d4, d5⟩, ⟨p1, -⟩, k, r, a, o, i, s⟩ := exWorldOf_contract 1 5 (by decide)
  exact ⟨⟨d1, d2, d3, d4, d5⟩, ⟨p1, fun _ => windowCost_contract 1 sad sad_finite⟩, k, r, a, o, i, s⟩

theorem exFlowF_ok : Main.main exWorldF (exUserWhole 2 1 (some exFlow) (some (.int 0))) =
    ((Main.main exWorldF (exUserWhole 2 1 (some exFlow) (some (.int 0)))).1, none) := by
  have : (Main.main exWorldF (exUserWhole 2 1 (some exFlow) (some (.int 0)))).2 = none := by
    obtain ⟨m, cfg, h⟩ := accepted_ok (w := exWorldOf 1) (user := exUserWhole 2 1 (some exFlow) (some (.int 0))) (by decide +kernel)
    refine C81_accepted_runs_partial exWorldF _ _ _ cfg m 5 3 0 4 0 2 2 1 exFlow_wf exWorldF_contract rfl (by decide) rfl
      (.inl ⟨_, _, rfl, .inl rfl, .inl rfl⟩) (.inr ⟨rfl, rfl, rfl, rfl, rfl⟩) (by decide) ?_ ?_ (.inr (.inr ?_)) h
    · intro he
      exact absurd rfl he
    · intro v hv
      have : v = exFlow := (Option.some.inj hv).symm
      subst this
      refine ⟨_, rfl, .inr (.inr ⟨rfl, .inl rfl, ?_⟩)⟩
      intro c st wn mar half hc hi
      have hw : wn = .int 3 := by
        have := congrArg (fun x => match x with | .ok (_, _, w, _) => w | .error _ => J.null) hc
        exact this.symm
      subst hw
      have : half = 1 := by
        rcases hi with hi | ⟨-, ⟨hi, -⟩ | ⟨hi, -⟩⟩
        · simp only [J.int.injEq] at hi; omega
        · simp at hi
        · simp at hi
      subst this
      exact ⟨⟨1, 2, by decide⟩, ⟨1, 2, by decide⟩⟩
    · exact ⟨_, _, _, _, _, _, _, rfl, rfl, rfl, rfl, rfl, .inl rfl, .inl rfl⟩
  rw [← this]

theorem exPlainF_ok : Main.main exWorldF (exUserWhole 1 1 none (some (.int 0))) =
    ((Main.main exWorldF (exUserWhole 1 1 none (some (.int 0)))).1, none) := by
  have : (Main.main exWorldF (exUserWhole 1 1 none (some (.int 0)))).2 = none := by
    obtain ⟨m, cfg, h⟩ := accepted_ok (w := exWorldOf 1) (user := exUserWhole 1 1 none (some (.int 0))) (by decide +kernel)
    refine C81_accepted_runs_partial exWorldF _ _ _ cfg m 5 3 0 4 0 2 1 1 exUserAll_wf exWorldF_contract rfl (by decide) rfl
      (.inl ⟨_, _, rfl, .inl rfl, .inl rfl⟩) (.inr ⟨rfl, rfl, rfl, rfl, rfl⟩) (by decide) ?_ ?_ (.inl ⟨rfl, rfl⟩) h
    · intro he
      exact absurd rfl he
    · intro v hv
      have : (exPipeline none 1 1 none).get "refinement" = none := by decide
      exact absurd (this.symm.trans hv) (by simp)
  rw [← this]

theorem exAsksF (sr : Nat) (ref : Option J) (hmc : ∃ g, (exPipeline none sr 1 ref).get "matching_cost" = some (.obj g) ∧
      g.get "step" = some (.arr (.cons (.int sr) (.cons (.int 1) .nil)))) 
    (hd : (exPipeline none sr 1 ref).get "disparity" = some (.obj (dict [("disparity_method", .str "wta"), ("invalid_disparity", .str "NaN")]))) :
    Asks exWorldF (exUserWhole sr 1 ref (some (.int 0))) 5 3 ⟨.const 0, 1⟩ ⟨.const 0, 1⟩ 0
    (((5 : Nat) : Int) - 1) 0 (((3 : Nat) : Int) - 1) sr 1 .nan := by
  obtain ⟨g, hg, hs⟩ := hmc
  exact ⟨⟨_, rfl, ⟨_, _, _, rfl, rfl, rfl, .inl rfl, .inl ⟨_, .inl rfl, rfl⟩⟩, ⟨_, _, _, rfl, rfl, rfl, .inl rfl, .inl ⟨_, .inl rfl, rfl⟩⟩⟩,
    .inr ⟨rfl, rfl, rfl, rfl, rfl⟩,
    ⟨_, _, _, rfl, hg, hd, .inl ⟨_, _, hs, .inl rfl, .inl rfl⟩, .inl ⟨_, rfl, .inr (.inr (.inl ⟨rfl, rfl⟩))⟩⟩⟩

/-- The hypotheses of `C98_flow_against_not` hold: an optical flow with a step of two rows against an execution with steps of one. -/
example := C98_flow_against_not exWorldF (exUserWhole 2 1 (some exFlow) (some (.int 0))) (exUserWhole 1 1 none (some (.int 0))) _ _ _ _ _ _ _ _ _ _ _
  5 3 _ _ 2 1 1 1 .nan 1 1 1 1 .min sad exFlow_wf exUserAll_wf exWorldF_contract.disk exWorldF_contract.pandora exWorldF_contract.keeps
  exWorldF_contract.offset
  ⟨⟨rfl, rfl⟩, ⟨_, rfl, rfl⟩, ⟨_, rfl, rfl⟩, ⟨rfl, rfl⟩, ⟨rfl, rfl⟩, ⟨rfl, rfl⟩, ⟨rfl, rfl⟩, rfl, .inl ⟨_, rfl, .inl rfl⟩, ⟨rfl, rfl⟩,
    ⟨_, _, _, _, rfl, .inl rfl⟩,
    ⟨_, _, _, _, _, _, rfl, rfl, rfl, .inl rfl, rfl, rfl⟩, ⟨_, _, _, _, _, _, rfl, rfl, rfl, .inl rfl, rfl, rfl⟩⟩
  rfl rfl (exAsksF 2 _ ⟨_, rfl, rfl⟩ rfl) (exAsksF 1 _ ⟨_, rfl, rfl⟩ rfl) exFlowF_ok exPlainF_ok

end Verif.Props
