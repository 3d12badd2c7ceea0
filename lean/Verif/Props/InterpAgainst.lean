import Verif.Props.InterpMain
import Verif.Props.FlowAgainst
import Verif.Props.Values

/-!
# C113: an execution with an interpolation against the same one without refinement
-/

namespace Verif.Props

open Verif Verif.Config Verif.Machine Verif.ImgTools Verif.MatchingCost Verif.Disparity Verif.Estimation Verif.Run Verif.Main Verif.Spec
  Verif.Save Verif.Statistics

set_option linter.unusedSectionVars false

variable {K : Type} [Field K] [LinearOrder K] [IsStrictOrderedRing K] [FloorRing K]

/-- C113: two successful executions on the same full images, without estimation, with window costs and the same intervals, one with an
interpolation and the other one without refinement, whatever their steps and invalid values: at each pixel they share, where the second gives
disparities, the first gives two numbers. They end the minimisation, which starts at the pair of the second, of a surface interpolated from the
costs of this pixel, on the axes of all the disparities asked widened by three, and stay on these axes; the score is the absolute value of
this surface. -/
theorem C113_interp_against_not (w : World K) (user user' p0 p0' mc mc' inp inp' f l r : Fields) (out out' : List (Written K)) (H W : Nat)
    (dRow dCol : Disp) (sr sc sr' sc' : Nat) (invalid invalid' : F K) (n hw : Nat) (me : Measure)
    (ker : List (F K × F K) → F K) (wf : user.wf) (wf' : user'.wf)
    (hdisk : DiskContract w H W) (hpan : PandoraContract w) (hkeeps : PandoraKeeps w.pandora) (hb : BoundsContract w.run.interp) (hzoom : w.run.zoom = zoomLinear)
    (same : InterpAndNot w user user' p0 p0' mc mc' inp inp' f n me (Pandora.windowCost hw ker))
    (hleft : inp.get "left" = some (.obj l)) (hright : inp.get "right" = some (.obj r))
    (ask : Asks w user H W dRow dCol 0 ((H : Int) - 1) 0 ((W : Int) - 1) sr sc invalid)
    (ask' : Asks w user' H W dRow dCol 0 ((H : Int) - 1) 0 ((W : Int) - 1) sr' sc' invalid')
    (h : Main.main w user = (out, none)) (h' : Main.main w user' = (out', none)) :
    ∃ files rest files' rest' left right gmin gmax, ∃ (ax ay : Arr1 K) (fr lr fc lc : Int) (displaced : K → Img K),
      out = .rasters files :: rest ∧ out' = .rasters files' :: rest' ∧ ImagesRead w l r none left right ∧
      (Extent dRow left fr lr ∧ Extent dCol left fc lc) ∧
      (FullLattice ay (fr - 3) (lr + 3) n ∧ FullLattice ax (fc - 3) (lc + 3) n) ∧
      GridIs gmin left dCol (-dCol.range - 3) ∧ GridIs gmax left dCol (dCol.range + 3) ∧
      (∀ dr : K, (∃ a : Int, dr * (n : K) = (a : K)) → Displaced (displaced dr) right dr) ∧
      ∀ i j i' j', i < files.row.h → j < files.row.w → i' < files'.row.h → j' < files'.row.w → i * sr = i' * sr' → j * sc = j' * sc' →
        ∀ R C : Nat, R = i * sr → C = j * sc → files'.score.values i' j' ≠ invalid' →
        InterpEnds w.run.interp me (fun dr dc => ReadDisp dRow fr lr R C dr ∧ ReadDisp dCol fc lc R C dc)
          (fun dr dc => Pandora.windowCost hw ker left (displaced dr) gmin gmax R C dc) ax ay (fr - 3) (lr + 3) (fc - 3) (lc + 3)
          (files'.row.values i' j') (files'.col.values i' j') (files.row.values i j) (files.col.values i j) (files.score.values i j) := by
  have hpd : ∀ {u p : Fields} {dR dC : Disp} {a b c d : Int} {x y : Nat} {iv : F K}, u.get "pipeline" = some (.obj p) →
      Asks w u H W dR dC a b c d x y iv → "disparity" ∈ p.keys := by
    intro u p dR dC a b c d x y iv hp hk
    obtain ⟨pl, mc, disp, a1, a2, a3, -⟩ := hk.steps
    rw [hp, Option.some.injEq, J.obj.injEq] at a1
    subst a1
    exact (Fields.get_isSome _ _).1 (by rw [a3]; rfl)
  obtain ⟨hu, hu'⟩ := same.pipelines
  obtain ⟨he, he'⟩ := same.noEstimation
  obtain ⟨s⟩ := main_stages w user p0 out wf hpan hu (hpd hu ask) h
  obtain ⟨s'⟩ := main_stages w user' p0' out' wf' hpan hu' (hpd hu' ask') h'
  obtain ⟨hn, dRow1, dCol1, ax, ay, fr, lr, fc, lc, gmin, gmax, -, i1, i2, -, -, i4, i5, i6, i7, i8⟩ :=
    s.interpWinner hdisk hkeeps wf hu ask.zone (by omega) same.refinement.1 same.method same.costs.1 same.matcher.1 hb
  obtain ⟨-, dRow2, dCol2, gmin', gmax', -, i1', i2', -, i4', i5', -, -, -, i6'⟩ :=
    s'.winner hdisk hkeeps wf' hu' ask'.zone (by omega) same.refinement.2 same.costs.2 same.matcher.2
  obtain ⟨j1, j2⟩ := i1 he
  obtain ⟨j1', j2'⟩ := i1' he'
  obtain ⟨⟨rfl, rfl⟩, ⟨rfl, rfl⟩, rfl⟩ := s.asked wf hu he ask j1 j2
  obtain ⟨⟨rfl, rfl⟩, ⟨rfl, rfl⟩, rfl⟩ := s'.asked wf' hu' he' ask' j1' j2'
  obtain ⟨n1, n2, l1, l2⟩ := same_images s s' wf wf' he he' same.inputs.1 same.inputs.2 same.left same.right same.full.1 same.full.2
  rw [n1] at i2
  obtain ⟨f1, f2, f3, f4, -⟩ := i2
  rw [l1] at i4' i5' i6'
  rw [l2] at i6'
  have himg := s.images wf same.inputs.1 hleft hright
  rw [n1] at himg
  refine ⟨s.files, _, s'.files, _, s.left.img, s.right.img, gmin, gmax, ax, ay, fr, lr, fc, lc, slabImg w.run.zoom s.right.img n, s.outIs,
    s'.outIs, himg, i4, i5, i6, i7, fun dr hdr => by rw [hzoom]; exact slab_displaced _ _ hn _ hdr,
    fun i j i' j' hi hj hi' hj' e1 e2 R C hR hC hv => ?_⟩
  obtain ⟨r0, c0, s0, key, pix, ins⟩ := i8 i hi j hj R C (by rw [hR, zero_add]; push_cast; rfl) (by rw [hC, zero_add]; push_cast; rfl)
  obtain ⟨⟨a, b, ha, hb', ea, eb⟩, key'⟩ := i6' i' hi' j' hj'
  have e1' : (0 : Int) + (i' : Int) * s'.plan.cfg.stepRow = (R : Int) := by rw [hR, zero_add]; exact_mod_cast e1.symm
  have e2' : (0 : Int) + (j' : Int) * s'.plan.cfg.stepCol = (C : Int) := by rw [hC, zero_add]; exact_mod_cast e2.symm
  rw [e1', e2'] at key'
  rw [e1'] at ea
  rw [e2'] at eb
  have g1 := i6 a ha b hb'
  have g2 := i7 a ha b hb'
  have g1' := i4' a ha b hb'
  have g2' := i5' a ha b hb'
  rw [← ea, ← eb] at g1 g2 g1' g2'
  have ta : ((R : Int) - s.left.img.row0).toNat = a := by omega
  have tb : ((C : Int) - s.left.img.col0).toNat = b := by omega
  rw [ta, tb] at key key' pix
  have costs : ∀ x y : K, (((initAt dCol R C - dCol.range : Int) : K) ≤ y ∧ y ≤ ((initAt dCol R C + dCol.range : Int) : K)) →
      Pandora.windowCost hw ker s.left.img (slabImg w.run.zoom s.right.img n x) gmin gmax a b y =
      Pandora.windowCost hw ker s.left.img (slabImg w.run.zoom s.right.img n x) gmin' gmax' a b y := by
    intro x y ⟨q4, q5⟩
    refine cost_wider ⟨?_, ?_⟩ ⟨?_, ?_⟩
    · rw [g1]; exact le_trans (Int.cast_le.2 (by omega)) q4
    · rw [g2]; exact le_trans q5 (Int.cast_le.2 (by omega))
    · rw [g1']; exact q4
    · rw [g2']; exact q5
  have hex : ∃ x y, AskedPair dRow dCol n R C x y ∧
      Pandora.windowCost hw ker s.left.img (slabImg w.run.zoom s.right.img n x) gmin' gmax' a b y ≠ .nan := by
    by_contra hno
    push Not at hno
    exact hv (key'.invalid hno).2.2
  have key2 := best_congr (fun x y q => costs x y q.2.2) key
  rcases best_same key2 key' with q | ⟨q1, q2, -⟩
  · exact absurd q.2.2.2.2.2 hv
  obtain ⟨x, y, qa, qc⟩ := hex
  obtain ⟨⟨u, v, hx, hy⟩, ⟨x1, x2⟩, y1, y2⟩ := qa
  have h0 : (0 : K) < n := Nat.cast_pos.2 hn
  have hx' : x = (u : K) / (n : K) := by rw [← hx]; field_simp
  have hy' : y = (v : K) / (n : K) := by rw [← hy]; field_simp
  have z1 := i4.1.inside a ha b hb'
  have z2 := i4.2.inside a ha b hb'
  rw [← ea, ← eb] at z1 z2
  obtain ⟨jy, jy1, jy2, -⟩ := i5.1.complete u (by rw [← hx']; exact le_trans (Int.cast_le.2 (by omega)) x1)
    (by rw [← hx']; exact le_trans x2 (Int.cast_le.2 (by omega)))
  obtain ⟨ix, ix1, ix2, -⟩ := i5.2.complete v (by rw [← hy']; exact le_trans (Int.cast_le.2 (by omega)) y1)
    (by rw [← hy']; exact le_trans y2 (Int.cast_le.2 (by omega)))
  obtain ⟨m, g, x', y', m1, m2, m8, m3, m4, m5, m6, m7⟩ := pix.minimised ⟨ix, ix1, jy, jy1, by
    rw [jy2, ix2, ← hx', ← hy']
    refine ⟨⟨.inl ⟨x1, x2⟩, .inl ⟨y1, y2⟩⟩, ?_⟩
    show Pandora.windowCost hw ker s.left.img (slabImg w.run.zoom s.right.img n x) gmin gmax a b y ≠ .nan
    rw [costs x y ⟨y1, y2⟩]
    exact qc⟩
  have ra : a = R := by omega
  have rb : b = C := by omega
  subst ra rb
  refine ⟨m, g, x', y', m1, m2, m8, m3, ?_, m5, m6, m7, ?_⟩
  · rw [q1, q2, i5.1.first, i5.1.last, i5.2.first, i5.2.last] at m4
    exact m4
  · rcases ins with ⟨t, -⟩ | ⟨y2', x2', t1, t2, t3, t4⟩
    · rw [m6] at t; simp at t
    · rw [m5, F.fin.injEq] at t2
      rw [m6, F.fin.injEq] at t1
      rw [t1, t2]
      exact ⟨t3, t4⟩

/-! ### Non-vacuity -/

theorem exInterpF_wf : (exUserWhole 2 1 (some exInterp) (some (.int 0))).wf := by
  simp [exUserWhole, exInput, exPipeline, exInterp, dict, Fields.append, Fields.wf, J.wf, Fields.keys]

theorem exInterpF_ok : Main.main exWorldF (exUserWhole 2 1 (some exInterp) (some (.int 0))) =
    ((Main.main exWorldF (exUserWhole 2 1 (some exInterp) (some (.int 0)))).1, none) := by
  have : (Main.main exWorldF (exUserWhole 2 1 (some exInterp) (some (.int 0)))).2 = none := by
    obtain ⟨m, cfg, h⟩ := accepted_ok (w := exWorldOf 1) (user := exUserWhole 2 1 (some exInterp) (some (.int 0))) (by decide +kernel)
    refine C81_accepted_runs_partial exWorldF _ _ _ cfg m 5 3 0 4 0 2 2 1 exInterpF_wf exWorldF_contract rfl (by decide) rfl
      (.inl ⟨_, _, rfl, .inl rfl, .inl rfl⟩) (.inr ⟨rfl, rfl, rfl, rfl, rfl⟩) (by decide) ?_ ?_ (.inr (.inr ?_)) h
    · intro he
      exact absurd rfl he
    · intro v hv
      have : v = exInterp := (Option.some.inj hv).symm
      subst this
      exact ⟨_, rfl, .inl rfl⟩
    · exact ⟨_, _, _, _, _, _, _, rfl, rfl, rfl, rfl, rfl, .inl rfl, .inl rfl⟩
  rw [← this]

/-- The hypotheses of `C113_interp_against_not` hold: an interpolation with a step of two rows against an execution with steps of one. -/
example := C113_interp_against_not exWorldF (exUserWhole 2 1 (some exInterp) (some (.int 0))) (exUserWhole 1 1 none (some (.int 0))) _ _ _ _ _ _ _ _ _
  _ _ 5 3 _ _ 2 1 1 1 .nan .nan 1 1 .min sad exInterpF_wf exUserAll_wf exWorldF_contract.disk exWorldF_contract.pandora exWorldF_contract.keeps
  exI_bounds rfl
  ⟨⟨rfl, rfl⟩, ⟨_, rfl, rfl⟩, ⟨_, rfl, rfl⟩, ⟨rfl, rfl⟩, ⟨rfl, rfl⟩, ⟨rfl, rfl⟩, ⟨rfl, rfl⟩, rfl, ⟨rfl, rfl⟩,
    ⟨_, _, _, _, _, _, rfl, rfl, rfl, .inl rfl, rfl, rfl⟩, ⟨_, _, _, _, _, _, rfl, rfl, rfl, .inl rfl, rfl, rfl⟩⟩
  rfl rfl (exAsksF 2 _ ⟨_, rfl, rfl⟩ rfl) (exAsksF 1 _ ⟨_, rfl, rfl⟩ rfl) exInterpF_ok exPlainF_ok

end Verif.Props
