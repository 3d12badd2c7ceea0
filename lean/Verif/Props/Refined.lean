import Verif.Spec.Refined
import Verif.Props.Wider
import Verif.Props.DichotomyMainExample

/-!
# C93: a refined execution against the same execution without refinement
-/

namespace Verif.Props

open Verif Verif.Config Verif.Machine Verif.ImgTools Verif.MatchingCost Verif.Disparity Verif.Estimation Verif.Run Verif.Main Verif.Spec
  Verif.Save Verif.Statistics

set_option linter.unusedSectionVars false

variable {K : Type} [Field K] [LinearOrder K] [IsStrictOrderedRing K] [FloorRing K]

/-- The best pair depends on the costs of the pairs asked only. -/
theorem best_congr {m : Measure} {asked : K → K → Prop} {cost cost' : K → K → F K} {invalid r c s : F K}
    (hc : ∀ x y, asked x y → cost x y = cost' x y) (h : BestPair m asked cost invalid r c s) : BestPair m asked cost' invalid r c s := by
  have hex : (∃ x y, asked x y ∧ cost' x y ≠ .nan) → ∃ x y, asked x y ∧ cost x y ≠ .nan := by
    rintro ⟨x, y, q1, q2⟩
    exact ⟨x, y, q1, by rw [hc x y q1]; exact q2⟩
  refine ⟨fun hn => h.invalid fun x y q => by rw [hc x y q]; exact hn x y q, fun he => ?_, fun he => ?_⟩
  · obtain ⟨⟨q1, x, y, q2, q3⟩, q4⟩ := h.best (hex he)
    refine ⟨⟨q1, x, y, q2, by rw [← hc x y q2]; exact q3⟩, ?_⟩
    rintro v ⟨v1, x', y', v2, v3⟩
    exact q4 v ⟨v1, x', y', v2, by rw [hc x' y' v2]; exact v3⟩
  · obtain ⟨x, y, e1, e2, ⟨y', q1, q2⟩, ⟨x', q3, q4⟩, q5⟩ := h.smallest (hex he)
    exact ⟨x, y, e1, e2, ⟨y', q1, by rw [← hc _ _ q1]; exact q2⟩, ⟨x', q3, by rw [← hc _ _ q3]; exact q4⟩,
      fun a b q6 q7 => q5 a b q6 (by rw [hc a b q6]; exact q7)⟩

theorem iterations_unique {f : Fields} {it it' : Nat} (h : IterationsIs f it) (h' : IterationsIs f it') : it = it' := by
  obtain ⟨v, n, h1, h2, rfl⟩ := h
  obtain ⟨v', n', h1', h2', rfl⟩ := h'
  rw [h1, Option.some.injEq] at h1'
  subst h1'
  have : (n : Int) = n' := IsInt.unique h2 h2'
  have : n = n' := by exact_mod_cast this
  rw [this]

section
variable {w : World K} {user p0 mc f : Fields} {out : List (Written K)} {H W : Nat} {rf rl cf cl : Int} {n : Nat} {me : Measure}
  {pc : Pandora.Cost K}

/-- The rasters of a successful `main` with a dichotomy: each pixel is moved from its best pair. -/
theorem Stages.refinedWinner (s : Stages w user p0 out) (hdisk : DiskContract w H W) (hkeeps : PandoraKeeps w.pandora) (hw : user.wf)
    (hu : user.get "pipeline" = some (.obj p0)) (hz : ZoneIs user H W rf rl cf cl) (hne : rf < rl ∧ rl < H ∧ cf < cl ∧ cl < W)
    (href : p0.get "refinement" = some (.obj f)) (hm : f.get "refinement_method" = some (.str "dichotomy"))
    (hmc : p0.get "matching_cost" = some (.obj mc)) (hmat : MatcherIs w mc n me pc) :
    0 < n ∧ s.plan.cfg.stepRow = 1 ∧ s.plan.cfg.stepCol = 1 ∧
    ∃ (dRow dCol : Disp) (it ml mr : Nat) (gmin gmax : Arr2 Int), IterationsIs f it ∧
      (∃ i3, s.cfg3.get "input" = some (.obj i3) ∧ IsDisp w.files i3 "row_disparity" dRow ∧ IsDisp w.files i3 "col_disparity" dCol) ∧
      (p0.get "estimation" = none → IsDisp w.files s.inp "row_disparity" dRow ∧ IsDisp w.files s.inp "col_disparity" dCol) ∧
      ReadZone s.left.img s.roi H W rf rl cf cl ∧ (s.right.img.h = s.left.img.h ∧ s.right.img.w = s.left.img.w) ∧
      GridIs gmin s.left.img dCol (-dCol.range - ml) ∧ GridIs gmax s.left.img dCol (dCol.range + mr) ∧
      ∀ i < s.files.row.h, ∀ j < s.files.row.w,
        (∃ a b : Nat, a < s.left.img.h ∧ b < s.left.img.w ∧ rf + (i : Int) = s.left.img.row0 + a ∧
          cf + (j : Int) = s.left.img.col0 + b) ∧
        ∃ r0 c0 s0, BestPair me (AskedPair dRow dCol n (rf + i) (cf + j))
          (fun dr dc => pc s.left.img (slabImg w.run.zoom s.right.img n dr) gmin gmax
            (rf + (i : Int) - s.left.img.row0).toNat (cf + (j : Int) - s.left.img.col0).toNat dc) s.plan.invalid r0 c0 s0 ∧
          Moved me (fun dr dc => pc s.left.img (slabImg w.run.zoom s.right.img n dr) gmin gmax
              (rf + (i : Int) - s.left.img.row0).toNat (cf + (j : Int) - s.left.img.col0).toNat dc) (1 / (n : K) - 1 / 2 ^ it)
            (initAt dRow (rf + i) (cf + j) - dRow.range) (initAt dRow (rf + i) (cf + j) + dRow.range)
            (initAt dCol (rf + i) (cf + j) - dCol.range) (initAt dCol (rf + i) (cf + j) + dCol.range) s.plan.invalid r0 c0
            (s.files.row.values i j) (s.files.col.values i j) (s.files.score.values i j) := by
  obtain ⟨hin, hzone⟩ := s.zone hdisk hz ⟨hne.2.1, hne.2.2.2⟩
  obtain ⟨-, hsize, -⟩ := s.image hdisk hin
  obtain ⟨dRow, dCol, L, cv, o, m, e1, e2, e3, e4, e5, e6, hp, r2, r3, r4, hmaps, e7, e8, e9⟩ := s.volumes hdisk hin hw hu
  obtain ⟨b1, b2, b3, b4⟩ := s.reads.steps
  obtain ⟨-, -, -, -, hg⟩ := pipeline_new w.steps user p0 s.pl s.m hw hu s.pipeline
  have hpw : p0.wf := Fields.wf_get user hw hu
  obtain ⟨u1, u2, u3⟩ := s.matcher hkeeps hw hu hmc hmat
  -- the matching cost
  obtain ⟨mc', m1, m2⟩ := s.reads.matching
  obtain ⟨cm, vm', hm1, -, hm2, hm3⟩ := hg _ _ m1
  obtain ⟨me', k, cost, hbm, hsub⟩ := mc_rebuilt hkeeps hm1 hm2 m2
  obtain ⟨vb, hvb, hvb'⟩ := s.reads.built
  rw [hm3, Option.some.injEq] at hvb
  subst hvb
  rw [hbm, Except.ok.injEq, StepCfg.matchingCost.injEq] at hvb'
  obtain ⟨hcfg, -, -⟩ := hvb'
  have hk : s.plan.cfg.subpix = 2 ^ k := by rw [← hcfg]
  -- the dichotomy
  obtain ⟨vm, cm', st, wn, mar, c', -, -, -, -, k5, k6⟩ := checked_with hw hu s.pipeline href
  obtain ⟨c, v', h1, h2, h3, h4⟩ := hg _ _ href
  rw [h2, Option.some.injEq, Prod.mk.injEq] at k6
  obtain ⟨-, rfl⟩ := k6
  obtain ⟨it, flt, q1, q2, q3, q4⟩ := dicho_rebuilt (a := s.m.data) (Fields.wf_get p0 hpw href) hm k5 h3
  obtain ⟨v'', c', w1, w2, w3⟩ := s.reads.refinement _ href
  rw [h4, Option.some.injEq] at w1
  subst w1
  rw [q2, Except.ok.injEq] at w2
  subst w2
  rw [refinement_margins hw hu s.pipeline h2] at r2
  rw [w3] at r4
  simp only [List.map_cons, List.map_nil, refinedAll, refined] at r4
  obtain ⟨o', y1, y2⟩ := bind_eq_ok r4
  obtain ⟨x, z1, z2⟩ := bind_eq_ok y1
  simp only [pure, Except.pure, Except.ok.injEq] at z2
  subst z2
  split_ifs at y2
  rw [Except.ok.injEq] at y2
  subst y2
  have hx : Dichotomy.refinementMethod flt it cv s.plan.invalid o.row o.col (gridsOf L) = .ok x := z1
  -- the steps
  obtain ⟨t1, t2, -⟩ := zone_size (by rw [e2]; exact hzone : ZoneOk L.img s.roi H W rf rl cf cl) hne
  have hst : s.plan.cfg.stepRow = 1 ∧ s.plan.cfg.stepCol = 1 := by
    by_contra hcon
    have hcon' : (2 ≤ s.plan.cfg.stepRow ∧ 2 ≤ L.img.h) ∨ (2 ≤ s.plan.cfg.stepCol ∧ 2 ≤ L.img.w) := by omega
    obtain ⟨e, he⟩ := C61_dichotomy_raises_with_step (f := flt) (it := it) (invalid := s.plan.invalid) hp b3 b1 r2 hcon' o.row o.col
    rw [hx] at he
    simp at he
  have hsave := s.saved
  rw [hmaps] at hsave
  simp only at hsave
  obtain ⟨files, after, v1, v2, v3⟩ := saved_zone hp b3 b1 b2 (by rw [e2]; exact hzone) r2 x.row.get x.col.get x.cost.get
    (w.crs s.leftJ) (w.transform s.leftJ)
  rw [v1, Except.ok.injEq, Prod.mk.injEq] at hsave
  obtain ⟨hfile, -⟩ := hsave
  rw [← hfile]
  have hur := uniform_of_config _ _ _ _ _ _ e5
  have huc := uniform_of_config _ _ _ _ _ _ e6
  obtain ⟨⟨d1, d2, d3, d4, d5⟩, hac, har, hwf, hinit⟩ := dicho_initial hp hur huc b4 b3 hst.1 hst.2 r2 r3
  have hs' : cv.subpixel = 2 ^ k := by rw [d1, hk]
  have hsv : 0 < cv.subpixel := by rw [d1]; exact b3
  refine ⟨by rw [← u1]; exact b3, hst.1, hst.2, dRow, dCol, it, (refMargins c).left, (refMargins c).right,
    widened L.colDisp.lo (-((refMargins c).left : Int)), widened L.colDisp.hi (refMargins c).right, q4, e7, e8, hzone, hsize, ?_, ?_,
    fun i hi j hj => ?_⟩
  · intro x hx y hy
    rw [← e2] at hx hy ⊢
    have := (configured_at e4 e6 hx hy).1
    simp only [widened]
    omega
  · intro x hx y hy
    rw [← e2] at hx hy ⊢
    have := (configured_at e4 e6 hx hy).2
    simp only [widened]
    omega
  · obtain ⟨r', hr', c', hc', g1, g2, g3, g4, g5⟩ := v3 i hi j hj
    have key := volume_winner hp hur huc b4 b3 b1 b2 r2 r3 (show Pixel cv r' c' from ⟨hr', hc'⟩)
    rw [hst.1] at g1
    rw [hst.2] at g2
    rw [d4] at g1
    rw [d5] at g2
    have x1 : (cv.row.get r' - L.img.row0).toNat = r' := by rw [d4]; omega
    have x2 : (cv.col.get c' - L.img.col0).toNat = c' := by rw [d5]; omega
    obtain ⟨p1, p2⟩ := configured_at e3 e5 (r := r') (c := c') (by omega) (by omega)
    obtain ⟨p3, p4⟩ := configured_at e4 e6 (r := r') (c := c') (by omega) (by omega)
    have f1 : rf + (i : Int) = L.img.row0 + r' := by omega
    have f2 : cf + (j : Int) = L.img.col0 + c' := by omega
    have f3 : (rf + (i : Int) - s.left.img.row0).toNat = r' := by rw [← e2]; omega
    have f4 : (cf + (j : Int) - s.left.img.col0).toNat = c' := by rw [← e2]; omega
    refine ⟨⟨r', c', by rw [← e2]; omega, by rw [← e2]; omega, by rw [← e2]; exact f1, by rw [← e2]; exact f2⟩, o.row.get r' c',
      o.col.get r' c', o.score.get r' c', ?_, ?_⟩
    · unfold InRange at key
      rw [x1, x2, p1, p2, p3, p4, u1, u2, u3, e2] at key
      rw [f3, f4, f1, f2, e2]
      exact key
    · rw [f3, f4, f1, f2, g3, g4, g5, ← p1, ← p2, ← p3, ← p4]
      obtain ⟨w1', w2'⟩ := C40_displacement hx hs' r' c' hr' hc'
      rw [d1, u1] at w1' w2'
      refine ⟨⟨w1', w2'⟩, fun hkept => ?_, fun a b ha hb n1 n2 hcost => ?_⟩
      · exact C44_disparities_kept_partial hx hsv hac har r' c' hr' hc' (by
          rcases hkept with hkept | hkept
          · exact .inl hkept
          · exact .inr (.inr hkept))
      · rcases hinit r' hr' c' hc' with ⟨y1, -⟩ | ⟨⟨jj, hjj, ej⟩, ⟨ii, hii, ei⟩, i1, i2⟩
        · exact absurd y1 n1
        · have ej' : a = cv.dispRow.get jj := by rw [ha] at ej; exact F.fin.inj ej
          have ei' : b = cv.dispCol.get ii := by rw [hb] at ei; exact F.fin.inj ei
          obtain ⟨_, y1, y2, y3⟩ := i1
          rw [ha] at y1
          obtain rfl := F.fin.inj y1
          obtain ⟨_, y1', y2', y3'⟩ := i2
          rw [hb] at y1'
          obtain rfl := F.fin.inj y1'
          simp only [gridsOf] at y2 y3 y2' y3'
          have ir := hp.row.inside r' (by omega) c' (by omega)
          have ic := hp.col.inside r' (by omega) c' (by omega)
          have ui : UserCol cv ii := src_userCol hp b3 b1 r2 hii (by
            rw [← ei']
            exact ⟨le_trans (Int.cast_le.2 ic.1) y2', le_trans y3' (Int.cast_le.2 ic.2)⟩)
          have uj : UserRow cv jj := src_userRow hp b3 b1 r2 hjj (by
            rw [← ej']
            exact ⟨le_trans (Int.cast_le.2 ir.1) y2, le_trans y3 (Int.cast_le.2 ir.2)⟩)
          have hcell := (cells_own hp hur huc b3 b1 b2 r2 (show Pixel cv r' c' from ⟨hr', hc'⟩) ui uj).1 (by
            rw [x1, x2, ← ei', ← ej']; exact ⟨⟨y2, y3⟩, y2', y3'⟩)
          rw [x1, x2, ← ei', ← ej', u1, u3, e2] at hcell
          have hcell' : cv.data r' c' ii jj = pc s.left.img (slabImg w.run.zoom s.right.img n a)
            (widened L.colDisp.lo (-((refMargins c).left : Int))) (widened L.colDisp.hi (refMargins c).right) r' c' b := hcell
          obtain ⟨-, -, -, -, -, -, x7, -⟩ := compute_char hp b3 b1 r2
          have := C43_not_worse_partial hx hsv hac har r' c' ii jj hr' hc' hii hjj ej ei n1 n2 (by rw [hcell']; exact hcost)
            (hwf r' hr' c' hc' ii hii jj hjj)
          rw [hcell', x7, u2] at this
          exact this

end

/-- C93 on one execution: for every successful execution with a dichotomy, without estimation, every ROI inside the image or none, every
subpixel factor, kind of initial disparities and cost: each pixel of the rasters is its best pair, as defined for the executions without
refinement (C87), moved by at most `1 / n - 1 / 2 ^ it`. It is kept when it is invalid or at an end of its interval, and its score is not
worse than the cost at the best pair. -/
theorem C93_moved_from_best (w : World K) (user p0 mc inp l r f : Fields) (out : List (Written K)) (H W : Nat) (dRow dCol : Disp)
    (rf rl cf cl : Int) (sr sc : Nat) (invalid : F K) (n it : Nat) (me : Measure) (pc : Pandora.Cost K) (hw : user.wf)
    (hdisk : DiskContract w H W) (hpan : PandoraContract w) (hkeeps : PandoraKeeps w.pandora) (hzoom : w.run.zoom = zoomLinear)
    (hu : user.get "pipeline" = some (.obj p0)) (he : p0.get "estimation" = none) (href : p0.get "refinement" = some (.obj f))
    (hm : f.get "refinement_method" = some (.str "dichotomy")) (hit : IterationsIs f it)
    (hmc : p0.get "matching_cost" = some (.obj mc)) (hmat : MatcherIs w mc n me pc)
    (ask : Asks w user H W dRow dCol rf rl cf cl sr sc invalid) (hne : rf < rl ∧ rl < H ∧ cf < cl ∧ cl < W)
    (hi : user.get "input" = some (.obj inp)) (hleft : inp.get "left" = some (.obj l)) (hright : inp.get "right" = some (.obj r))
    (h : Main.main w user = (out, none)) :
    ∃ files rest roi left right gmin gmax, ∃ (ml mr : Nat) (displaced : K → Img K), out = .rasters files :: rest ∧
      ImagesRead w l r roi left right ∧ ReadZone left roi H W rf rl cf cl ∧
      GridIs gmin left dCol (-dCol.range - ml) ∧ GridIs gmax left dCol (dCol.range + mr) ∧
      (∀ dr : K, (∃ a : Int, dr * (n : K) = (a : K)) → Displaced (displaced dr) right dr) ∧
      ∀ i < files.row.h, ∀ j < files.row.w, ∃ r0 c0 s0,
        BestPair me (AskedPair dRow dCol n (rf + i) (cf + j))
          (fun dr dc => pc left (displaced dr) gmin gmax (rf + (i : Int) - left.row0).toNat (cf + (j : Int) - left.col0).toNat dc)
          invalid r0 c0 s0 ∧
        Moved me (fun dr dc => pc left (displaced dr) gmin gmax (rf + (i : Int) - left.row0).toNat (cf + (j : Int) - left.col0).toNat dc)
          (1 / (n : K) - 1 / 2 ^ it)
          (initAt dRow (rf + i) (cf + j) - dRow.range) (initAt dRow (rf + i) (cf + j) + dRow.range)
          (initAt dCol (rf + i) (cf + j) - dCol.range) (initAt dCol (rf + i) (cf + j) + dCol.range) invalid r0 c0
          (files.row.values i j) (files.col.values i j) (files.score.values i j) := by
  have hd : "disparity" ∈ p0.keys := by
    obtain ⟨pl, mc', disp, a1, a2, a3, -⟩ := ask.steps
    rw [hu, Option.some.injEq, J.obj.injEq] at a1
    subst a1
    exact (Fields.get_isSome _ _).1 (by rw [a3]; rfl)
  obtain ⟨s⟩ := main_stages w user p0 out hw hpan hu hd h
  obtain ⟨hn, -, -, dRow', dCol', it', ml, mr, gmin, gmax, k1, -, i1, i2, i3, i4, i5, i6⟩ :=
    s.refinedWinner hdisk hkeeps hw hu ask.zone hne href hm hmc hmat
  obtain ⟨j1, j2⟩ := i1 he
  obtain ⟨⟨rfl, rfl⟩, -, rfl⟩ := s.asked hw hu he ask j1 j2
  obtain rfl := iterations_unique hit k1
  refine ⟨s.files, _, s.roi, s.left.img, s.right.img, gmin, gmax, ml, mr, slabImg w.run.zoom s.right.img n, s.outIs,
    s.images hw hi hleft hright, i2, i4, i5, fun dr hdr => ?_, fun i hi' j hj => (i6 i hi' j hj).2⟩
  rw [hzoom]
  exact slab_displaced _ _ hn _ hdr

/-- The images read without ROI by two executions whose users give the same sections. -/
theorem same_images {w : World K} {user user' p0 p0' inp inp' : Fields} {out out' : List (Written K)} (s : Stages w user p0 out)
    (s' : Stages w user' p0' out') (wf : user.wf) (wf' : user'.wf) (he : p0.get "estimation" = none) (he' : p0'.get "estimation" = none)
    (hi : user.get "input" = some (.obj inp)) (hi' : user'.get "input" = some (.obj inp'))
    (hl : ∃ v, inp.get "left" = some v ∧ inp'.get "left" = some v) (hr : ∃ v, inp.get "right" = some v ∧ inp'.get "right" = some v)
    (hf : user.get "ROI" = none) (hf' : user'.get "ROI" = none) :
    s.roi = none ∧ s'.roi = none ∧ s'.left.img = s.left.img ∧ s'.right.img = s.right.img := by
  have hnone : ∀ {u p : Fields} {o : List (Written K)} (t : Stages w u p o), u.get "ROI" = none → t.roi = none := by
    intro u p o t hR
    have r1 := t.roiFor
    cases hx : t.roi with
    | none => rfl
    | some R =>
      rw [hx] at r1
      obtain ⟨v, hv, -⟩ := r1
      rw [hR] at hv; simp at hv
  have n1 := hnone s hf
  have n2 := hnone s' hf'
  obtain ⟨vl, v1, v2⟩ := hl
  obtain ⟨vr, v3, v4⟩ := hr
  obtain ⟨-, -, lj, rj, l1, l2, l3, l4⟩ := created_input s.datasets
  obtain ⟨-, -, lj', rj', l1', l2', l3', l4'⟩ := created_input s'.datasets
  rw [← s.same_side s' wf wf' he he' hi hi' v1 v2, l1, Option.some.injEq] at l1'
  rw [← s.same_side s' wf wf' he he' hi hi' v3 v4, l2, Option.some.injEq] at l2'
  subst l1' l2'
  rw [n1] at l3 l4
  rw [n2, l3, Except.ok.injEq] at l3'
  rw [n2, l4, Except.ok.injEq] at l4'
  exact ⟨n1, n2, l3'.symm, l4'.symm⟩

/-- C93: two successful executions on the same full images, without estimation, with window costs and the same intervals, one with a
dichotomy and the other one without refinement: at each pixel they share, the disparities of the first are those of the second moved by
at most `1 / n - 1 / 2 ^ it`, less than one step of the disparities. They are those of the second when these are invalid or at an end of
their interval. When a single pair reaches the score of the second, which is not invalid, the score of the first is at least as good. -/
theorem C93_refined_against_not (w : World K) (user user' p0 p0' mc mc' inp inp' f l r : Fields) (out out' : List (Written K)) (H W : Nat)
    (dRow dCol : Disp) (sr sc sr' sc' : Nat) (invalid : F K) (n it hw : Nat) (me : Measure)
    (ker : List (F K × F K) → F K) (wf : user.wf) (wf' : user'.wf)
    (hdisk : DiskContract w H W) (hpan : PandoraContract w) (hkeeps : PandoraKeeps w.pandora) (hzoom : w.run.zoom = zoomLinear)
    (same : RefinedAndNot w user user' p0 p0' mc mc' inp inp' f n it me (Pandora.windowCost hw ker)) (hHW : 2 ≤ H ∧ 2 ≤ W)
    (hleft : inp.get "left" = some (.obj l)) (hright : inp.get "right" = some (.obj r))
    (ask : Asks w user H W dRow dCol 0 ((H : Int) - 1) 0 ((W : Int) - 1) sr sc invalid)
    (ask' : Asks w user' H W dRow dCol 0 ((H : Int) - 1) 0 ((W : Int) - 1) sr' sc' invalid)
    (h : Main.main w user = (out, none)) (h' : Main.main w user' = (out', none)) :
    ∃ files rest files' rest' left right gmin gmax, ∃ (displaced : K → Img K) (cost : Nat → Nat → K → K → F K),
      out = .rasters files :: rest ∧ out' = .rasters files' :: rest' ∧ ImagesRead w l r none left right ∧
      GridIs gmin left dCol (-dCol.range) ∧ GridIs gmax left dCol dCol.range ∧
      (∀ dr : K, (∃ a : Int, dr * (n : K) = (a : K)) → Displaced (displaced dr) right dr) ∧
      (∀ i j dr dc, cost i j dr dc = Pandora.windowCost hw ker left (displaced dr) gmin gmax i j dc) ∧
      ∀ i j i' j', i < files.row.h → j < files.row.w → i' < files'.row.h → j' < files'.row.w → i = i' * sr' → j = j' * sc' →
        BestPair me (AskedPair dRow dCol n i j) (cost i j) invalid (files'.row.values i' j') (files'.col.values i' j')
          (files'.score.values i' j') ∧
        Moved me (cost i j) (1 / (n : K) - 1 / 2 ^ it) (initAt dRow i j - dRow.range) (initAt dRow i j + dRow.range)
          (initAt dCol i j - dCol.range) (initAt dCol i j + dCol.range) invalid (files'.row.values i' j') (files'.col.values i' j')
          (files.row.values i j) (files.col.values i j) (files.score.values i j) ∧
        (files'.row.values i' j' ≠ invalid → files'.col.values i' j' ≠ invalid →
          (∀ x y x' y', AskedPair dRow dCol n i j x y → AskedPair dRow dCol n i j x' y' → cost i j x y = files'.score.values i' j' →
            cost i j x' y' = files'.score.values i' j' → x = x' ∧ y = y') →
          files.score.values i j ≠ .nan ∧ AtLeastAsGood me (files.score.values i j) (files'.score.values i' j')) := by
  have hpd : ∀ {u p : Fields} {dR dC : Disp} {a b c d : Int} {x y : Nat} {iv : F K}, u.get "pipeline" = some (.obj p) →
      Asks w u H W dR dC a b c d x y iv → "disparity" ∈ p.keys := by
    intro u p dR dC a b c d x y iv hp hk
    obtain ⟨pl, mc, disp, a1, a2, a3, -⟩ := hk.steps
    rw [hp, Option.some.injEq, J.obj.injEq] at a1
    subst a1
    exact (Fields.get_isSome _ _).1 (by rw [a3]; rfl)
  obtain ⟨hu, hu'⟩ := same.pipelines
  obtain ⟨he, he'⟩ := same.noEstimation
  obtain ⟨s⟩ := main_stages w user p0 out wf hpan hu (hpd hu ask) h
  obtain ⟨s'⟩ := main_stages w user' p0' out' wf' hpan hu' (hpd hu' ask') h'
  obtain ⟨hn, -, -, dRow1, dCol1, it', ml, mr, gmin, gmax, k1, -, i1, i2, -, i4, i5, i6⟩ :=
    s.refinedWinner hdisk hkeeps wf hu ask.zone (by omega) same.refinement.1 same.method same.costs.1 same.matcher.1
  obtain ⟨-, dRow2, dCol2, gmin', gmax', -, i1', i2', -, i4', i5', -, -, -, i6'⟩ :=
    s'.winner hdisk hkeeps wf' hu' ask'.zone (by omega) same.refinement.2 same.costs.2 same.matcher.2
  obtain ⟨j1, j2⟩ := i1 he
  obtain ⟨j1', j2'⟩ := i1' he'
  obtain ⟨⟨rfl, rfl⟩, -, ei⟩ := s.asked wf hu he ask j1 j2
  obtain ⟨⟨rfl, rfl⟩, ⟨rfl, rfl⟩, ei'⟩ := s'.asked wf' hu' he' ask' j1' j2'
  rw [← ei] at i6
  rw [← ei'] at i6'
  obtain rfl := iterations_unique same.iterations k1
  obtain ⟨n1, n2, l1, l2⟩ := same_images s s' wf wf' he he' same.inputs.1 same.inputs.2 same.left same.right same.full.1 same.full.2
  rw [n1] at i2
  obtain ⟨f1, f2, f3, f4, -⟩ := i2
  rw [l1] at i4' i5' i6'
  rw [l2] at i6'
  have himg := s.images wf same.inputs.1 hleft hright
  rw [n1] at himg
  refine ⟨s.files, _, s'.files, _, s.left.img, s.right.img, gmin', gmax', slabImg w.run.zoom s.right.img n,
    fun a b dr dc => Pandora.windowCost hw ker s.left.img (slabImg w.run.zoom s.right.img n dr) gmin' gmax' a b dc,
    s.outIs, s'.outIs, himg, i4', i5', fun dr hdr => by rw [hzoom]; exact slab_displaced _ _ hn _ hdr, fun _ _ _ _ => rfl, fun i j i' j' hi hj hi' hj' e1 e2 => ?_⟩
  obtain ⟨⟨a, b, ha, hb, ea, eb⟩, r0, c0, s0, key, moved⟩ := i6 i hi j hj
  have key' := (i6' i' hi' j' hj').2
  have e1' : (i' : Int) * s'.plan.cfg.stepRow = (i : Int) := by exact_mod_cast e1.symm
  have e2' : (j' : Int) * s'.plan.cfg.stepCol = (j : Int) := by exact_mod_cast e2.symm
  rw [e1', e2'] at key'
  have ha' : a = i := by omega
  have hb' : b = j := by omega
  subst ha' hb'
  have ta : (0 + (a : Int) - s.left.img.row0).toNat = a := by omega
  have tb : (0 + (b : Int) - s.left.img.col0).toNat = b := by omega
  rw [ta, tb, zero_add, zero_add] at key key' moved
  have g1 := i4 a ha b hb
  have g2 := i5 a ha b hb
  have g1' := i4' a ha b hb
  have g2' := i5' a ha b hb
  rw [f1, f2, zero_add, zero_add] at g1 g2 g1' g2'
  have costs : ∀ x y : K, (((initAt dCol a b - dCol.range : Int) : K) ≤ y ∧ y ≤ ((initAt dCol a b + dCol.range : Int) : K)) →
      Pandora.windowCost hw ker s.left.img (slabImg w.run.zoom s.right.img n x) gmin gmax a b y =
      Pandora.windowCost hw ker s.left.img (slabImg w.run.zoom s.right.img n x) gmin' gmax' a b y := by
    intro x y ⟨q4, q5⟩
    refine cost_wider ⟨?_, ?_⟩ ⟨?_, ?_⟩
    · rw [g1]; exact le_trans (Int.cast_le.2 (by omega)) q4
    · rw [g2]; exact le_trans q5 (Int.cast_le.2 (by omega))
    · rw [g1']; exact q4
    · rw [g2']; exact q5
  have key2 := best_congr (fun x y q => costs x y q.2.2) key
  obtain ⟨x1, x2, x3⟩ := BestPair.unique key2 key'
  rw [x1, x2] at moved
  have inside : ∀ x y : K, s'.files.row.values i' j' = .fin x → s'.files.col.values i' j' = .fin y →
      s'.files.row.values i' j' ≠ invalid →
      ((initAt dCol a b - dCol.range : Int) : K) ≤ y ∧ y ≤ ((initAt dCol a b + dCol.range : Int) : K) := by
    intro x y hx hy hne
    by_cases hex : ∃ dr dc, AskedPair dRow dCol n a b dr dc ∧
        Pandora.windowCost hw ker s.left.img (slabImg w.run.zoom s.right.img n dr) gmin' gmax' a b dc ≠ .nan
    · obtain ⟨dr, dc, q1, q2, -, ⟨dr', q3, -⟩, -⟩ := key'.smallest hex
      rw [hy] at q2
      obtain rfl := F.fin.inj q2
      exact q3.2.2
    · push Not at hex
      exact absurd (key'.invalid hex).1 hne
  have moved' : Moved me (fun dr dc => Pandora.windowCost hw ker s.left.img (slabImg w.run.zoom s.right.img n dr) gmin' gmax' a b dc)
      (1 / (n : K) - 1 / 2 ^ it) (initAt dRow a b - dRow.range) (initAt dRow a b + dRow.range)
      (initAt dCol a b - dCol.range) (initAt dCol a b + dCol.range) invalid (s'.files.row.values i' j') (s'.files.col.values i' j')
      (s.files.row.values a b) (s.files.col.values a b) (s.files.score.values a b) := by
    refine ⟨moved.near, moved.kept, fun x y hx hy v1 v2 hc => ?_⟩
    have hin := inside x y hx hy v1
    rw [← costs x y hin] at hc ⊢
    exact moved.score x y hx hy v1 v2 hc
  refine ⟨key', moved', fun v1 v2 huniq => ?_⟩
  by_cases hex : ∃ dr dc, AskedPair dRow dCol n a b dr dc ∧
      Pandora.windowCost hw ker s.left.img (slabImg w.run.zoom s.right.img n dr) gmin' gmax' a b dc ≠ .nan
  · obtain ⟨dr, dc, q1, q2, ⟨dc', q3, q4⟩, ⟨dr', q5, q6⟩, -⟩ := key'.smallest hex
    obtain ⟨-, rfl⟩ := huniq _ _ _ _ q3 q5 q4 q6
    have hsn := (key'.best hex).1.1
    have := moved'.score dr _ q1 q2 v1 v2 (by rw [q4]; exact hsn)
    rw [q4] at this
    exact this
  · push Not at hex
    exact absurd (key'.invalid hex).1 v1

/-! ### Non-vacuity -/

/-- The hypotheses of `C93_moved_from_best` hold for the configuration of the example of C82, where a pixel is moved by half a pixel. -/
example := C93_moved_from_best exWorldD exUserD _ _ _ _ _ _ _ 7 7 _ _ 0 6 0 6 1 1 .nan 1 1 _ _ exUserD_wf exWorldD_disk
  ⟨exWorldI_contract.pandora.subpix, exWorldI_contract.pandora.cost⟩ ⟨exWorldI_contract.keeps.numbers, exWorldI_contract.keeps.again⟩
  rfl rfl rfl rfl rfl ⟨_, 1, rfl, .inl rfl, rfl⟩ rfl ⟨_, _, _, _, _, _, rfl, rfl, rfl, .inl rfl, rfl, rfl⟩ exUserD_asks (by decide)
  rfl rfl rfl exUserD_ok

theorem exUserDichoS_ok : Main.main exWorldS (exUserWhole 1 1 (some exDicho) (some (.int 0))) =
    ((Main.main exWorldS (exUserWhole 1 1 (some exDicho) (some (.int 0)))).1, none) := by
  have : (Main.main exWorldS (exUserWhole 1 1 (some exDicho) (some (.int 0)))).2 = none := by
    obtain ⟨m, cfg, h⟩ := accepted_ok (w := exWorldI) (user := exUserWhole 1 1 (some exDicho) (some (.int 0))) (by decide +kernel)
    refine C81_accepted_runs_partial exWorldS _ _ _ cfg m 5 3 0 4 0 2 1 1 exUserD_wf exWorldS_contract rfl (by decide) rfl
      (.inl ⟨_, _, rfl, .inl rfl, .inl rfl⟩) (.inr ⟨rfl, rfl, rfl, rfl, rfl⟩) (by decide) ?_ ?_ (.inl ⟨rfl, rfl⟩) h
    · intro he
      exact absurd rfl he
    · intro v hv
      have : v = exDicho := (Option.some.inj hv).symm
      subst this
      exact ⟨_, rfl, .inr (.inl ⟨rfl, rfl, rfl⟩)⟩
  rw [← this]

theorem exUserDichoS_asks : Asks exWorldS (exUserWhole 1 1 (some exDicho) (some (.int 0))) 5 3 ⟨.const 0, 1⟩ ⟨.const 0, 1⟩ 0
    (((5 : Nat) : Int) - 1) 0 (((3 : Nat) : Int) - 1) 1 1 .nan :=
  ⟨⟨_, rfl, ⟨_, _, _, rfl, rfl, rfl, .inl rfl, .inl ⟨_, .inl rfl, rfl⟩⟩, ⟨_, _, _, rfl, rfl, rfl, .inl rfl, .inl ⟨_, .inl rfl, rfl⟩⟩⟩,
    .inr ⟨rfl, rfl, rfl, rfl, rfl⟩,
    ⟨_, _, _, rfl, rfl, rfl, .inl ⟨_, _, rfl, .inl rfl, .inl rfl⟩, .inl ⟨_, rfl, .inr (.inr (.inl ⟨rfl, rfl⟩))⟩⟩⟩

/-- The hypotheses of `C93_refined_against_not` hold: the same configuration with and without a dichotomy of one iteration. -/
example := C93_refined_against_not exWorldS (exUserWhole 1 1 (some exDicho) (some (.int 0))) (exUserWhole 1 1 none (some (.int 0))) _ _ _ _ _ _ _ _ _ _ _
  5 3 _ _ 1 1 1 1 .nan 1 1 0 .min sad exUserD_wf exUserAll_wf exWorldS_contract.disk exWorldS_contract.pandora exWorldS_contract.keeps rfl
  ⟨⟨rfl, rfl⟩, ⟨_, rfl, rfl⟩, ⟨_, rfl, rfl⟩, ⟨rfl, rfl⟩, ⟨rfl, rfl⟩, ⟨rfl, rfl⟩, ⟨rfl, rfl⟩, rfl, ⟨_, 1, rfl, .inl rfl, rfl⟩, ⟨rfl, rfl⟩,
    ⟨_, _, _, _, _, _, rfl, rfl, rfl, .inl rfl, rfl, rfl⟩, ⟨_, _, _, _, _, _, rfl, rfl, rfl, .inl rfl, rfl, rfl⟩⟩ (by decide)
  rfl rfl exUserDichoS_asks exUserAll_asks exUserDichoS_ok exUserAll_ok

end Verif.Props
