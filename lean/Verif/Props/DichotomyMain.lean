import Verif.Props.Accepted

/-!
# C82: the files of a run with a dichotomy
-/

namespace Verif.Props

open Verif Verif.Config Verif.Machine Verif.ImgTools Verif.MatchingCost Verif.Disparity Verif.Estimation Verif.Run Verif.Main Verif.Spec
  Verif.Save Verif.Statistics

set_option linter.unusedSectionVars false

variable {K : Type} [Field K] [LinearOrder K] [IsStrictOrderedRing K] [FloorRing K]

/-- A multiple of `1 / 2 ^ k` moved by a multiple of `1 / 2 ^ it` is a multiple of the finest of the two. -/
theorem refined_multiple {k it : Nat} {a b : F K} {y : K} (h : Multiple (2 ^ k) a) (hl : OnLattice (1 / 2 ^ it) a b) (hb : b = .fin y) :
    ∃ n : Int, y * ((2 ^ max k it : Nat) : K) = n := by
  obtain ⟨x, rfl, n, hn⟩ := h
  have two : (2 : K) ≠ 0 := two_ne_zero
  obtain ⟨d, hd⟩ : ∃ d, max k it = k + d := ⟨max k it - k, by omega⟩
  obtain ⟨d', hd'⟩ : ∃ d, max k it = it + d := ⟨max k it - it, by omega⟩
  push_cast at hn
  rcases hl with e | ⟨x', y', e1, e2, m, hm⟩
  · rw [hb, F.fin.injEq] at e
    subst e
    refine ⟨n * 2 ^ d, ?_⟩
    rw [hd, pow_add]
    push_cast
    rw [← hn]
    ring
  · rw [F.fin.injEq] at e1
    subst e1
    rw [hb, F.fin.injEq] at e2
    subst e2
    refine ⟨n * 2 ^ d + m * 2 ^ d', ?_⟩
    have hy : y = x + m * (1 / 2 ^ it) := by rw [← hm]; ring
    push_cast
    rw [← hn, hy, add_mul]
    congr 1
    · rw [hd, pow_add]; ring
    · rw [hd', pow_add]
      field_simp

/-- The range of a pixel is the one configured at its coordinates. -/
theorem configured_at {row0 col0 : Int} {h w : Nat} {d : Disp} {M : MinMax} (hc : Covers d row0 col0 h w)
    (hM : getMinMax row0 col0 h w d false = .ok M) {r c : Nat} (hr : r < h) (hcw : c < w) :
    M.lo.get r c = initAt d (row0 + r) (col0 + c) - d.range ∧ M.hi.get r c = initAt d (row0 + r) (col0 + c) + d.range := by
  obtain ⟨L, hL, hx⟩ := C10_left_range_centred row0 col0 h w d hc
  rw [hM] at hL
  obtain rfl := Except.ok.inj hL
  exact hx r hr c hcw

section
variable {w : World K} {user p0 f : Fields} {out : List (Written K)} {H W : Nat} {rf rl cf cl : Int}

/-- The files of a successful `main` with a dichotomy. -/
theorem Stages.refinedInRange (s : Stages w user p0 out) (hdisk : DiskContract w H W) (hkeeps : PandoraKeeps w.pandora) (hw : user.wf)
    (hu : user.get "pipeline" = some (.obj p0)) (hz : ZoneIs user H W rf rl cf cl) (hne : rf < rl ∧ rl < H ∧ cf < cl ∧ cl < W)
    (href : p0.get "refinement" = some (.obj f)) (hm : f.get "refinement_method" = some (.str "dichotomy")) :
    ∃ (dRow dCol : Disp) (mc : Fields) (k it : Nat),
      p0.get "matching_cost" = some (.obj mc) ∧ SubpixIs w mc (2 ^ k) ∧ IterationsIs f it ∧
      s.plan.cfg.stepRow = 1 ∧ s.plan.cfg.stepCol = 1 ∧
      (∃ i3, s.cfg3.get "input" = some (.obj i3) ∧ IsDisp w.files i3 "row_disparity" dRow ∧ IsDisp w.files i3 "col_disparity" dCol) ∧
      (p0.get "estimation" = none → IsDisp w.files s.inp "row_disparity" dRow ∧ IsDisp w.files s.inp "col_disparity" dCol) ∧
      (∀ rr rc sf, s.plan.estimation = some (rr, rc, sf) → ∃ a b, w.run.correlation s.left.img s.right.img sf = (.fin a, .fin b) ∧
        dRow = ⟨.const (pyRound (-a)), rr⟩ ∧ dCol = ⟨.const (pyRound (-b)), rc⟩) ∧
      (∀ f ∈ [s.files.row, s.files.col, s.files.score],
        ZoneFile f (w.transform s.leftJ) rf rl cf cl s.plan.cfg.stepRow s.plan.cfg.stepCol) ∧
      ∀ i < s.files.row.h, ∀ j < s.files.row.w, RefinedInOwnRange s.files s.plan.invalid dRow dCol (2 ^ max k it) i j
        (rf + (i : Int) * s.plan.cfg.stepRow) (cf + (j : Int) * s.plan.cfg.stepCol) := by
  obtain ⟨hin, hzone⟩ := s.zone hdisk hz ⟨hne.2.1, hne.2.2.2⟩
  obtain ⟨dRow, dCol, L, cv, o, m, e1, e2, e3, e4, e5, e6, hp, r2, r3, r4, hmaps, e7, e8, e9⟩ := s.volumes hdisk hin hw hu
  obtain ⟨b1, b2, b3, b4⟩ := s.reads.steps
  obtain ⟨-, -, -, -, hg⟩ := pipeline_new w.steps user p0 s.pl s.m hw hu s.pipeline
  have hpw : p0.wf := Fields.wf_get user hw hu
  -- the matching cost
  obtain ⟨mc, m1, m2⟩ := s.reads.matching
  obtain ⟨cm, vm', hm1, -, hm2, hm3⟩ := hg _ _ m1
  obtain ⟨me, k, cost, hbm, hsub⟩ := mc_rebuilt hkeeps hm1 hm2 m2
  obtain ⟨vb, hvb, hvb'⟩ := s.reads.built
  rw [hm3, Option.some.injEq] at hvb
  subst hvb
  rw [hbm, Except.ok.injEq, StepCfg.matchingCost.injEq] at hvb'
  obtain ⟨hcfg, -, -⟩ := hvb'
  have hk : s.plan.cfg.subpix = 2 ^ k := by rw [← hcfg]
  -- the dichotomy
  obtain ⟨vm, cm', st, wn, mar, c', -, -, -, -, k5, k6⟩ := checked_with hw hu s.pipeline href
  obtain ⟨c, v', h1, h2, h3, h4⟩ := hg _ _ href
  rw [h2, Option.some.injEq, Prod.mk.injEq] at k6
  obtain ⟨-, rfl⟩ := k6
  obtain ⟨it, flt, q1, q2, q3, q4⟩ := dicho_rebuilt (a := s.m.data) (Fields.wf_get p0 hpw href) hm k5 h3
  obtain ⟨v'', c', w1, w2, w3⟩ := s.reads.refinement _ href
  rw [h4, Option.some.injEq] at w1
  subst w1
  rw [q2, Except.ok.injEq] at w2
  subst w2
  rw [refinement_margins hw hu s.pipeline h2] at r2
  rw [w3] at r4
  simp only [List.map_cons, List.map_nil, refinedAll, refined] at r4
  obtain ⟨o', y1, y2⟩ := bind_eq_ok r4
  obtain ⟨x, z1, z2⟩ := bind_eq_ok y1
  simp only [pure, Except.pure, Except.ok.injEq] at z2
  subst z2
  split_ifs at y2
  rw [Except.ok.injEq] at y2
  subst y2
  have hx : Dichotomy.refinementMethod flt it cv s.plan.invalid o.row o.col (gridsOf L) = .ok x := z1
  -- the steps
  obtain ⟨t1, t2, -⟩ := zone_size (by rw [e2]; exact hzone : ZoneOk L.img s.roi H W rf rl cf cl) hne
  have hst : s.plan.cfg.stepRow = 1 ∧ s.plan.cfg.stepCol = 1 := by
    by_contra hcon
    have hcon' : (2 ≤ s.plan.cfg.stepRow ∧ 2 ≤ L.img.h) ∨ (2 ≤ s.plan.cfg.stepCol ∧ 2 ≤ L.img.w) := by omega
    obtain ⟨e, he⟩ := C61_dichotomy_raises_with_step (f := flt) (it := it) (invalid := s.plan.invalid) hp b3 b1 r2 hcon' o.row o.col
    rw [hx] at he
    simp at he
  have hsave := s.saved
  rw [hmaps] at hsave
  simp only at hsave
  obtain ⟨files, after, v1, v2, v3⟩ := saved_zone hp b3 b1 b2 (by rw [e2]; exact hzone) r2 x.row.get x.col.get x.cost.get
    (w.crs s.leftJ) (w.transform s.leftJ)
  rw [v1, Except.ok.injEq, Prod.mk.injEq] at hsave
  obtain ⟨hfile, -⟩ := hsave
  rw [← hfile]
  obtain ⟨⟨d1, d2, d3, d4, d5⟩, hac, har, -, hinit⟩ := dicho_initial hp (uniform_of_config _ _ _ _ _ _ e5)
    (uniform_of_config _ _ _ _ _ _ e6) b4 b3 hst.1 hst.2 r2 r3
  have hs' : cv.subpixel = 2 ^ k := by rw [d1, hk]
  have hsv : 0 < cv.subpixel := by rw [d1]; exact b3
  refine ⟨dRow, dCol, mc, k, it, m1, hsub, q4, hst.1, hst.2, e7, e8, e9, fun f hf => ?_, fun i hi j hj => ?_⟩
  · obtain ⟨-, f1, f2, f3, f4⟩ := v2 f hf
    exact ⟨f1, f2, f3, f4⟩
  · obtain ⟨r', hr', c', hc', g1, g2, g3, g4, g5⟩ := v3 i hi j hj
    rcases hinit r' hr' c' hc' with ⟨a, b⟩ | ⟨⟨jj, hjj, ej⟩, ⟨ii, hii, ei⟩, i1, i2⟩
    · left
      obtain ⟨s1, s2⟩ := C44_disparities_kept_partial hx hsv hac har r' c' hr' hc' (.inl (.inl a))
      exact ⟨by rw [g3, s1, a], by rw [g4, s2, b]⟩
    · right
      have n1 : Multiple cv.subpixel (o.row.get r' c') := candidate_multiple hsv har hjj ej
      have n2 : Multiple cv.subpixel (o.col.get r' c') := candidate_multiple hsv hac hii ei
      obtain ⟨⟨y, y1, y2⟩, ⟨y', y1', y2'⟩⟩ := C42_stays_in_range hx hs' r' c' hr' hc' n1 n2 i1 i2
      obtain ⟨l1, l2⟩ := C41_lattice hx hs' r' c' hr' hc'
      rw [hs'] at n1 n2
      obtain ⟨na, hna⟩ := refined_multiple n1 l1 y1
      obtain ⟨nb, hnb⟩ := refined_multiple n2 l2 y1'
      obtain ⟨p1, p2⟩ := configured_at e3 e5 (r := r') (c := c') (by omega) (by omega)
      obtain ⟨p3, p4⟩ := configured_at e4 e6 (r := r') (c := c') (by omega) (by omega)
      simp only [gridsOf] at y2 y2'
      rw [d4] at g1
      rw [d5] at g2
      rw [p1, p2, g1, g2] at y2
      rw [p3, p4, g1, g2] at y2'
      exact ⟨y, y', by rw [g3]; exact y1, by rw [g4]; exact y1', y2, y2', na, nb, hna, hnb⟩

end

/-- C82: for every successful execution with a dichotomy and without estimation, on a zone of at least two rows and columns, every filter,
kind of initial disparities and history of the disk: the steps are one; each of the three rasters holds exactly the points of the zone
asked by the user, located by the transform of the left image; each pixel is the invalid value in the two rasters of disparities, or its
disparities are in the intervals asked by the user for that pixel and multiples of the finest of `1 / subpix` and `1 / 2 ^ iterations`. -/
theorem C82_refined_files (w : World K) (user p0 mc f : Fields) (out : List (Written K)) (H W : Nat) (dRow dCol : Disp)
    (rf rl cf cl : Int) (sr sc : Nat) (invalid : F K) (tr : Option (Affine K)) (k it : Nat) (hw : user.wf) (hdisk : DiskContract w H W)
    (hpan : PandoraContract w) (hkeeps : PandoraKeeps w.pandora) (hu : user.get "pipeline" = some (.obj p0))
    (he : p0.get "estimation" = none) (hmc : p0.get "matching_cost" = some (.obj mc)) (hk : SubpixIs w mc (2 ^ k))
    (href : p0.get "refinement" = some (.obj f))
    (hm : f.get "refinement_method" = some (.str "dichotomy")) (hit : IterationsIs f it)
    (ask : Asks w user H W dRow dCol rf rl cf cl sr sc invalid)
    (hne : rf < rl ∧ rl < H ∧ cf < cl ∧ cl < W) (ht : LeftTransform w user tr) (h : Main.main w user = (out, none)) :
    sr = 1 ∧ sc = 1 ∧ ∃ files rest, out = .rasters files :: rest ∧
      (∀ f ∈ [files.row, files.col, files.score], ZoneFile f tr rf rl cf cl 1 1) ∧
      ∀ i < files.row.h, ∀ j < files.row.w,
        RefinedInOwnRange files invalid dRow dCol (2 ^ max k it) i j (rf + i) (cf + j) := by
  obtain ⟨pl, mc2, disp, a1, a2, a3, a4, a5⟩ := ask.steps
  rw [hu, Option.some.injEq, J.obj.injEq] at a1
  subst a1
  rw [hmc, Option.some.injEq, J.obj.injEq] at a2
  subst a2
  have hd : "disparity" ∈ p0.keys := (Fields.get_isSome p0 _).1 (by rw [a3]; rfl)
  obtain ⟨s⟩ := main_stages w user p0 out hw hpan hu hd h
  obtain ⟨dRow', dCol', mc', k', it', i0, i1, i2, i3, i4, -, i5, -, i6, i7⟩ :=
    s.refinedInRange hdisk hkeeps hw hu ask.zone hne href hm
  obtain ⟨j1, j2⟩ := i5 he
  -- what was asked
  rw [hmc, Option.some.injEq, J.obj.injEq] at i0
  subst i0
  have hkk : 2 ^ k' = 2 ^ k := by
    obtain ⟨c, st, wn, mar, g, x, x1, x2, x3, x4⟩ := hk
    obtain ⟨c', st', wn', mar', g', x', x1', x2', x3', x4'⟩ := i1
    rw [x1, Except.ok.injEq, Prod.mk.injEq] at x1'
    obtain ⟨rfl, -⟩ := x1'
    rw [x2, J.obj.injEq] at x2'
    subst x2'
    rw [x3, Option.some.injEq] at x3'
    subst x3'
    exact_mod_cast IsInt.unique x4' x4
  have hkk := Nat.pow_right_injective (le_refl 2) hkk
  subst hkk
  have hii : it' = it := by
    obtain ⟨v, n, x1, x2, rfl⟩ := hit
    obtain ⟨v', n', x1', x2', rfl⟩ := i2
    rw [x1, Option.some.injEq] at x1'
    subst x1'
    have := IsInt.unique x2 x2'
    have : n = n' := by exact_mod_cast this
    rw [this]
  subst hii
  obtain ⟨mc', m1, m2⟩ := s.reads.matching
  rw [hmc, Option.some.injEq, J.obj.injEq] at m1
  subst m1
  obtain ⟨rfl, rfl⟩ := StepIs.unique a4 m2
  obtain ⟨disp', n1, n2⟩ := s.reads.disparity
  rw [a3, Option.some.injEq, J.obj.injEq] at n1
  subst n1
  obtain rfl := InvalidIs.unique a5 n2
  obtain ⟨inp, b1, b2, b3⟩ := ask.disparities
  have hge : givesEstimation p0 = false := by unfold givesEstimation; rw [he]
  have hin := s.input
  rw [hge] at hin
  obtain ⟨c, c1, c2, -, -⟩ := checkInputSection_ok hin
  simp only [Bool.false_eq_true, if_false] at c2
  subst c2
  obtain ⟨uf, u1, u2, u3⟩ := input_section_get (getConfigInput_wf hw) c1 s.inputIs (by rw [getConfigInput_get, b1]; rfl)
  rw [getConfigInput_get, b1, Option.some.injEq, J.obj.injEq] at u1
  subst u1
  obtain rfl := isDisp_checked u2 (u3 _ (by decide) (by decide)) b2 j1
  obtain rfl := isDisp_checked u2 (u3 _ (by decide) (by decide)) b3 j2
  rw [s.leftPath hw ht] at i6
  rw [i3, i4] at i6 i7
  refine ⟨i3, i4, s.files, _, s.outIs, i6, fun i hi j hj => ?_⟩
  simpa using i7 i hi j hj

/-- C82 with an estimation or not: the disparities of each pixel are in the intervals of the saved configuration for that pixel. -/
theorem C82_refined_saved (w : World K) (user p0 f : Fields) (out : List (Written K)) (H W : Nat)
    (rf rl cf cl : Int) (hw : user.wf) (hdisk : DiskContract w H W)
    (hpan : PandoraContract w) (hkeeps : PandoraKeeps w.pandora) (hu : user.get "pipeline" = some (.obj p0)) (hd : "disparity" ∈ p0.keys)
    (href : p0.get "refinement" = some (.obj f)) (hm : f.get "refinement_method" = some (.str "dichotomy"))
    (hz : ZoneIs user H W rf rl cf cl) (hne : rf < rl ∧ rl < H ∧ cf < cl ∧ cl < W) (h : Main.main w user = (out, none)) :
    ∃ files row col saved rest inp dRow dCol mc disp invalid k it,
      out = .rasters files :: .report row col :: .config saved :: rest ∧ saved.get "input" = some (.obj inp) ∧
      IsDisp w.files inp "row_disparity" dRow ∧ IsDisp w.files inp "col_disparity" dCol ∧
      p0.get "matching_cost" = some (.obj mc) ∧ StepIs mc 1 1 ∧ SubpixIs w mc (2 ^ k) ∧ IterationsIs f it ∧
      p0.get "disparity" = some (.obj disp) ∧ InvalidIs disp invalid ∧
      (∀ i < files.row.h, ∀ j < files.row.w,
        RefinedInOwnRange files invalid dRow dCol (2 ^ max k it) i j (rf + i) (cf + j)) ∧
      ∀ v, p0.get "estimation" = some v → ∃ est, v = .obj est ∧ RangeIs est "range_row" dRow.range ∧
        RangeIs est "range_col" dCol.range := by
  obtain ⟨s⟩ := main_stages w user p0 out hw hpan hu hd h
  obtain ⟨dRow, dCol, mc, k, it, m1, i1, i2, i3, i4, ⟨x3, k1, k2, k3⟩, -, k5, -, k4⟩ :=
    s.refinedInRange hdisk hkeeps hw hu hz hne href hm
  obtain ⟨mc', m1', m2⟩ := s.reads.matching
  rw [m1, Option.some.injEq, J.obj.injEq] at m1'
  subst m1'
  rw [i3, i4] at m2 k4
  obtain ⟨disp, n1, n2⟩ := s.reads.disparity
  refine ⟨s.files, _, _, s.cfg3.set "margins" (w.marginsDict s.m.data.cumulative s.m.data.nonCumulative), _, x3, dRow, dCol, mc, disp, _,
    k, it, s.outIs, ?_, k2, k3, m1, m2, i1, i2, n1, n2, fun i hi j hj => by simpa using k4 i hi j hj, fun v hv => ?_⟩
  · rw [Fields.get_set, if_neg (by decide)]; exact k1
  · obtain ⟨-, -, -, -, hg⟩ := pipeline_new w.steps user p0 s.pl s.m hw hu s.pipeline
    obtain ⟨c, v', g1, -, g2, g3⟩ := hg _ _ hv
    cases he : s.plan.estimation with
    | none => rw [s.reads.estimation.2 he] at hv; simp at hv
    | some x =>
      obtain ⟨rr, rc, sf⟩ := x
      obtain ⟨v2, e1, e2⟩ := s.reads.estimated rr rc sf he
      rw [g3, Option.some.injEq] at e1
      subst e1
      obtain ⟨f, rfl, f1, f2⟩ := est_section (Fields.wf_get p0 (Fields.wf_get user hw hu) hv) g1 g2 e2
      obtain ⟨a, b, -, rfl, rfl⟩ := k5 rr rc sf he
      exact ⟨f, rfl, f1, f2⟩

end Verif.Props
