import Verif.Spec.FlowMain
import Verif.Props.Refined

/-!
# C96: an execution with an optical flow
-/

namespace Verif.Props

open Verif Verif.Config Verif.Machine Verif.ImgTools Verif.MatchingCost Verif.Disparity Verif.Estimation Verif.Run Verif.Main Verif.Spec
  Verif.Save Verif.Statistics

set_option linter.unusedSectionVars false

variable {K : Type} [Field K] [LinearOrder K] [IsStrictOrderedRing K] [FloorRing K]

/-- The inner points of a regular axis of an image. -/
theorem inner_point {m : Option Int} {a : Arr1 Int} {first : Int} {n step half k : Nat} (hs : 1 ≤ step)
    (ha : a = arangeA (startCoord m first step) (first + n) step) (hk : k < a.n) :
    InnerIdx a half k ↔ InnerPoint first n step half (a.get k) := by
  have hlt : startCoord m first step < first + step := by
    unfold startCoord
    cases m with
    | none => simp only; omega
    | some m =>
      have := Int.emod_lt_of_pos m (b := step) (by omega)
      simp only
      omega
  have hge := startCoord_ge m first step hs
  have hg : ∀ k, a.get k = startCoord m first step + (k : Int) * step := fun k => by rw [ha]; rfl
  have hmem : ∀ k, k < a.n ↔ startCoord m first step + (k : Int) * step < first + n := fun k => by rw [ha]; exact arangeA_mem hs
  unfold InnerIdx InnerPoint
  rw [hg, hg, hg]
  push_cast
  constructor
  · rintro ⟨-, h1, h2⟩
    refine ⟨⟨k, ?_, ?_⟩, ⟨a.n - 1 - k, ?_, ?_⟩⟩
    · have : (half : Int) ≤ (k : Int) * step := by omega
      exact_mod_cast this
    · omega
    · have e : ((a.n - 1 - k : Nat) : Int) = ((a.n - 1 : Nat) : Int) - k := by omega
      have : (half : Int) ≤ ((a.n - 1 - k : Nat) : Int) * step := by
        rw [e, sub_mul]; omega
      exact_mod_cast this
    · have e : ((a.n - 1 - k : Nat) : Int) = ((a.n - 1 : Nat) : Int) - k := by omega
      have := (hmem (a.n - 1)).1 (by omega)
      rw [e, sub_mul]
      omega
  · rintro ⟨⟨x, h1, h2⟩, ⟨y, h3, h4⟩⟩
    refine ⟨hk, ?_, ?_⟩
    · have hxk : x ≤ k := by
        by_contra hc
        have : ((k : Int) + 1) * step ≤ (x : Int) * step := mul_le_mul_of_nonneg_right (by omega) (by omega)
        rw [add_mul, one_mul] at this
        omega
      have h5 : (half : Int) ≤ (x : Int) * step := by exact_mod_cast h1
      have h6 : (x : Int) * step ≤ (k : Int) * step := mul_le_mul_of_nonneg_right (by omega) (by omega)
      omega
    · have hy : k + y < a.n := by
        rw [hmem]
        push_cast
        rw [add_mul]
        omega
      have h5 : (half : Int) ≤ (y : Int) * step := by exact_mod_cast h3
      have h6 : ((k + y : Nat) : Int) * step ≤ ((a.n - 1 : Nat) : Int) * step := mul_le_mul_of_nonneg_right (by omega) (by omega)
      push_cast at h6
      rw [add_mul] at h6
      omega

section
variable {z : Zoom K} {pc : Pandora.Cost K} {cfg : Cfg} {roi : Option Roi} {left : Left K} {right : Img K}
  {margins : Option Disparity.Margins} {cv : CostVolumes K}

/-- When the volumes are computed, reading the grids one out of `step` from their first row and column gives the range of each pixel: with
a step which skips points the ranges are the same everywhere. -/
theorem subsampled_range (hp : PairOk left right) (hur : Uniform left.rowDisp left.img.h left.img.w)
    (huc : Uniform left.colDisp left.img.h left.img.w) (hs : 0 < cfg.subpix) (h1 : 1 ≤ cfg.stepRow) (h2 : 1 ≤ cfg.stepCol)
    (h : computeCostVolumes z pc cfg roi left right margins = .ok cv) {r c : Nat} (hr : r < cv.row.n) (hc : c < cv.col.n) :
    ∀ M ∈ [left.rowDisp, left.colDisp],
      M.lo.get (r * cfg.stepRow) (c * cfg.stepCol) = M.lo.get (cv.row.get r - left.img.row0).toNat (cv.col.get c - left.img.col0).toNat ∧
      M.hi.get (r * cfg.stepRow) (c * cfg.stepCol) = M.hi.get (cv.row.get r - left.img.row0).toNat (cv.col.get c - left.img.col0).toNat := by
  obtain ⟨x1, x2, -⟩ := compute_char hp hs h1 h
  rw [rowCoords_eq] at x1
  rw [colCoords_eq] at x2
  have a1 : ∀ {m : Option Int} {c0 : Int} {n step : Nat} {a : Arr1 Int}, 1 ≤ step → a = arangeA (startCoord m c0 step) (c0 + n) step →
      ∀ {k : Nat}, k < a.n → k * step < n ∧ (a.get k - c0).toNat < n ∧
        (¬ (2 ≤ step ∧ 2 ≤ n) → k * step = (a.get k - c0).toNat) := by
    intro m c0 n step a hs ha k hk
    have h1 : startCoord m c0 step + (k : Int) * step < c0 + n := by rw [ha] at hk; exact (arangeA_mem hs).1 hk
    have h2 := startCoord_ge m c0 step hs
    have hg : a.get k = startCoord m c0 step + (k : Int) * step := by rw [ha]; rfl
    have hks : ((k * step : Nat) : Int) = (k : Int) * step := by push_cast; rfl
    refine ⟨by omega, by omega, fun hc => ?_⟩
    by_cases hst : step = 1
    · have : startCoord m c0 step = c0 := by rw [hst]; unfold startCoord; split <;> simp
      omega
    · omega
  obtain ⟨r1, r2, r3⟩ := a1 h1 x1 hr
  obtain ⟨c1, c2, c3⟩ := a1 h2 x2 hc
  by_cases hst : (2 ≤ cfg.stepRow ∧ 2 ≤ left.img.h) ∨ (2 ≤ cfg.stepCol ∧ 2 ≤ left.img.w)
  · have hcst : ConstantRange left.rowDisp left.img.h left.img.w ∧ ConstantRange left.colDisp left.img.h left.img.w := by
      by_contra hv
      have := C09_variable_ranges_with_step_raise (z := z) (pc := pc) (roi := roi) (margins := margins) hp hur huc hs h1 hst
        (by tauto)
      rw [h] at this
      simp at this
    intro M hM
    simp only [List.mem_cons, List.not_mem_nil, or_false] at hM
    rcases hM with rfl | rfl
    · obtain ⟨e1, e2⟩ := hcst.1 _ r1 _ c1
      obtain ⟨e3, e4⟩ := hcst.1 _ r2 _ c2
      exact ⟨e1.trans e3.symm, e2.trans e4.symm⟩
    · obtain ⟨e1, e2⟩ := hcst.2 _ r1 _ c1
      obtain ⟨e3, e4⟩ := hcst.2 _ r2 _ c2
      exact ⟨e1.trans e3.symm, e2.trans e4.symm⟩
  · rw [r3 (by tauto), c3 (by tauto)]
    exact fun _ _ => ⟨rfl, rfl⟩

end

theorem insideOr_own (invalid : F K) (lo hi : Int) (x : F K) : InsideOr lo hi invalid (insideOr invalid lo hi x) := by
  by_cases hn : x = .nan
  · left; rw [hn]; simp [insideOr, F.le]
  · exact .inr (insideOr_inside _ _ _ hn)

theorem half_unique {w : World K} {mc : Fields} {a b : Nat} (h : HalfWindowIs w mc a) (h' : HalfWindowIs w mc b) : a = b := by
  obtain ⟨c, st, wn, mar, h1, h2⟩ := h
  obtain ⟨c', st', wn', mar', h1', h2'⟩ := h'
  rw [h1, Except.ok.injEq, Prod.mk.injEq, Prod.mk.injEq, Prod.mk.injEq] at h1'
  obtain ⟨-, -, rfl, -⟩ := h1'
  have := IsInt.unique h2 h2'
  omega

theorem flow_iterations_unique {f : Fields} {a b : Nat} (h : FlowIterationsIs f a) (h' : FlowIterationsIs f b) : a = b := by
  rcases h with ⟨v, h1, h2⟩ | ⟨h1, h2⟩ <;> rcases h' with ⟨v', h1', h2'⟩ | ⟨h1', h2'⟩
  · rw [h1, Option.some.injEq] at h1'
    subst h1'
    exact_mod_cast IsInt.unique h2 h2'
  · rw [h1] at h1'; simp at h1'
  · rw [h1] at h1'; simp at h1'
  · omega

section
variable {w : World K} {user p0 mc f : Fields} {out : List (Written K)} {H W : Nat} {rf rl cf cl : Int} {n : Nat} {me : Measure}
  {pc : Pandora.Cost K}

/-- The rasters of a successful `main` with an optical flow. -/
theorem Stages.flowWinner (s : Stages w user p0 out) (hdisk : DiskContract w H W) (hkeeps : PandoraKeeps w.pandora)
    (hoff : ∀ g v n, g.get "window_size" = some v → IsInt true v n → w.offset (.obj g) = ((n - 1) / 2).toNat) (hw : user.wf)
    (hu : user.get "pipeline" = some (.obj p0)) (hz : ZoneIs user H W rf rl cf cl) (hl : rl < H ∧ cl < W)
    (href : p0.get "refinement" = some (.obj f)) (hm : f.get "refinement_method" = some (.str "optical_flow"))
    (hmc : p0.get "matching_cost" = some (.obj mc)) (hmat : MatcherIs w mc n me pc) :
    0 < n ∧ ∃ (dRow dCol : Disp) (half it ml mr : Nat) (gmin gmax : Arr2 Int), 1 ≤ half ∧ HalfWindowIs w mc half ∧ FlowIterationsIs f it ∧
      (∃ i3, s.cfg3.get "input" = some (.obj i3) ∧ IsDisp w.files i3 "row_disparity" dRow ∧ IsDisp w.files i3 "col_disparity" dCol) ∧
      (p0.get "estimation" = none → IsDisp w.files s.inp "row_disparity" dRow ∧ IsDisp w.files s.inp "col_disparity" dCol) ∧
      ReadZone s.left.img s.roi H W rf rl cf cl ∧ (s.right.img.h = s.left.img.h ∧ s.right.img.w = s.left.img.w) ∧
      (∀ f ∈ [s.files.row, s.files.col, s.files.score],
        ZoneFile f (w.transform s.leftJ) rf rl cf cl s.plan.cfg.stepRow s.plan.cfg.stepCol) ∧
      GridIs gmin s.left.img dCol (-dCol.range - ml) ∧ GridIs gmax s.left.img dCol (dCol.range + mr) ∧
      ∀ i < s.files.row.h, ∀ j < s.files.row.w, ∀ R C, R = rf + (i : Int) * s.plan.cfg.stepRow → C = cf + (j : Int) * s.plan.cfg.stepCol →
        (∃ a b : Nat, a < s.left.img.h ∧ b < s.left.img.w ∧ R = s.left.img.row0 + a ∧ C = s.left.img.col0 + b) ∧
        ∃ r0 c0, BestPair me (AskedPair dRow dCol n R C)
          (fun dr dc => pc s.left.img (slabImg w.run.zoom s.right.img n dr) gmin gmax (R - s.left.img.row0).toNat
            (C - s.left.img.col0).toNat dc) s.plan.invalid r0 c0 (s.files.score.values i j) ∧
          NearPair it s.plan.invalid r0 c0 (s.files.row.values i j) (s.files.col.values i j) ∧
          (InsideOr (initAt dRow R C - dRow.range) (initAt dRow R C + dRow.range) s.plan.invalid (s.files.row.values i j) ∧
              InsideOr (initAt dCol R C - dCol.range) (initAt dCol R C + dCol.range) s.plan.invalid (s.files.col.values i j)) ∧
            (InnerPoint s.left.img.row0 s.left.img.h s.plan.cfg.stepRow half R ∧
                InnerPoint s.left.img.col0 s.left.img.w s.plan.cfg.stepCol half C →
              FlowPixel w.run.flow half it s.left.img s.right.img R C
                (initAt dRow R C - dRow.range) (initAt dRow R C + dRow.range) (initAt dCol R C - dCol.range)
                (initAt dCol R C + dCol.range) s.plan.invalid r0 c0 (s.files.row.values i j) (s.files.col.values i j)) ∧
            (¬ (InnerPoint s.left.img.row0 s.left.img.h s.plan.cfg.stepRow half R ∧
                InnerPoint s.left.img.col0 s.left.img.w s.plan.cfg.stepCol half C) →
              s.files.row.values i j = s.plan.invalid ∧ s.files.col.values i j = s.plan.invalid) := by
  obtain ⟨hin, hzone⟩ := s.zone hdisk hz hl
  obtain ⟨-, hsize, -⟩ := s.image hdisk hin
  obtain ⟨dRow, dCol, L, cv, o, m, e1, e2, e3, e4, e5, e6, hp, r2, r3, r4, hmaps, e7, e8, e9⟩ := s.volumes hdisk hin hw hu
  obtain ⟨b1, b2, b3, b4⟩ := s.reads.steps
  obtain ⟨-, -, -, -, hg⟩ := pipeline_new w.steps user p0 s.pl s.m hw hu s.pipeline
  have hpw : p0.wf := Fields.wf_get user hw hu
  obtain ⟨u1, u2, u3⟩ := s.matcher hkeeps hw hu hmc hmat
  -- the optical flow
  obtain ⟨vm, cm', st, wn, mar, c', k1, k2, k3, k4, k5, k6⟩ := checked_with hw hu s.pipeline href
  rw [hmc, Option.some.injEq] at k1
  subst k1
  obtain ⟨c, v', h1, h2, h3, h4⟩ := hg _ _ href
  rw [h2, Option.some.injEq, Prod.mk.injEq] at k6
  obtain ⟨-, rfl⟩ := k6
  obtain ⟨half, it, q1, q2, q3, q4⟩ := flow_rebuilt (Fields.wf_get p0 hpw href) hm k3 k4 (mc_values k2).1 k5 h3
  -- the offset
  obtain ⟨mc', m1, m2⟩ := s.reads.matching
  rw [hmc, Option.some.injEq, J.obj.injEq] at m1
  subst m1
  obtain ⟨cm, vm', hm1, -, hm2, hm3⟩ := hg _ _ hmc
  obtain ⟨me', k, cost, hbm, -⟩ := mc_rebuilt hkeeps hm1 hm2 m2
  obtain ⟨vb, hvb, hvb'⟩ := s.reads.built
  rw [hm3, Option.some.injEq] at hvb
  subst hvb
  rw [hbm, Except.ok.injEq, StepCfg.matchingCost.injEq] at hvb'
  have hcm : cm' = cm := by
    simp only [Checked, String.reduceEq, false_and, true_and, false_or, or_false] at hm1
    obtain ⟨_, _, _, hm1⟩ := hm1
    have hm1 : matchingCostCheck w.pandora (J.obj mc).convAll = .ok (cm, _, _, _) := hm1
    rw [k2, Except.ok.injEq, Prod.mk.injEq] at hm1
    exact hm1.1
  have hoffset : s.plan.offset = half := by
    obtain ⟨-, g, hg1, hg2⟩ := mc_values k2
    rw [← hvb'.2.1, ← hcm, hg1, hoff g wn _ hg2 q2]
    omega
  obtain ⟨v'', c', w1, w2, w3⟩ := s.reads.refinement _ href
  rw [h4, Option.some.injEq] at w1
  subst w1
  rw [q3, Except.ok.injEq] at w2
  subst w2
  rw [w3] at r4
  simp only [List.map_cons, List.map_nil, refinedAll, refined] at r4
  obtain ⟨o', y1, y2⟩ := bind_eq_ok r4
  obtain ⟨x, z1, z2⟩ := bind_eq_ok y1
  simp only [pure, Except.pure, Except.ok.injEq] at z2
  subst z2
  split_ifs at y2
  rw [Except.ok.injEq] at y2
  subst y2
  rw [hoffset] at z1
  obtain ⟨oc, orr⟩ := x
  have hx : OpticalFlow.refinementMethod w.run.flow w.run.junk ⟨2 * half + 1, it⟩ (coordsOf cv s.plan.cfg half) s.plan.invalid o.row o.col
    L.img s.right.img L.rowDisp L.colDisp = .ok (oc, orr) := z1
  have S := flow_setting hp b3 b1 b2 r2 r3 half it q1
  obtain ⟨⟨sh1, sh2⟩, -⟩ := maps_shape r3
  have hsave := s.saved
  rw [hmaps] at hsave
  simp only at hsave
  obtain ⟨files, after, v1, v2, v3⟩ := saved_zone hp b3 b1 b2 (by rw [e2]; exact hzone) r2 orr.get oc.get o.score.get
    (w.crs s.leftJ) (w.transform s.leftJ)
  rw [v1, Except.ok.injEq, Prod.mk.injEq] at hsave
  obtain ⟨hfile, -⟩ := hsave
  rw [← hfile]
  refine ⟨by rw [← u1]; exact b3, dRow, dCol, half, it, (mgD (refinementMargins s.m.data)).left,
    (mgD (refinementMargins s.m.data)).right, widened L.colDisp.lo (-((mgD (refinementMargins s.m.data)).left : Int)),
    widened L.colDisp.hi (mgD (refinementMargins s.m.data)).right, q1, ⟨_, _, _, _, k2, q2⟩, q4, e7, e8, hzone, hsize,
    fun f hf => ?_, ?_, ?_, fun i hi j hj R C hR hC => ?_⟩
  · obtain ⟨-, f1, f2, f3, f4⟩ := v2 f hf
    exact ⟨f1, f2, f3, f4⟩
  · intro x hx y hy
    rw [← e2] at hx hy ⊢
    have := (configured_at e4 e6 hx hy).1
    simp only [widened]
    omega
  · intro x hx y hy
    rw [← e2] at hx hy ⊢
    have := (configured_at e4 e6 hx hy).2
    simp only [widened]
    omega
  · obtain ⟨r', hr', c', hc', g1, g2, g3, g4, g5⟩ := v3 i hi j hj
    rw [← hR] at g1
    rw [← hC] at g2
    have key := volume_winner hp (uniform_of_config _ _ _ _ _ _ e5) (uniform_of_config _ _ _ _ _ _ e6) b4 b3 b1 b2 r2 r3
      (show Pixel cv r' c' from ⟨hr', hc'⟩)
    obtain ⟨x1, x2, -⟩ := compute_char hp b3 b1 r2
    have i1 : 0 ≤ cv.row.get r' - L.img.row0 ∧ cv.row.get r' - L.img.row0 < L.img.h := by
      rw [x1, rowCoords_eq] at hr' ⊢; exact coords_in _ _ _ _ b1 hr'
    have i2 : 0 ≤ cv.col.get c' - L.img.col0 ∧ cv.col.get c' - L.img.col0 < L.img.w := by
      rw [x2, colCoords_eq] at hc' ⊢; exact coords_in _ _ _ _ b2 hc'
    obtain ⟨y1, y2⟩ := configured_at e3 e5 (r := (cv.row.get r' - L.img.row0).toNat) (c := (cv.col.get c' - L.img.col0).toNat)
      (by omega) (by omega)
    obtain ⟨y3, y4⟩ := configured_at e4 e6 (r := (cv.row.get r' - L.img.row0).toNat) (c := (cv.col.get c' - L.img.col0).toNat)
      (by omega) (by omega)
    rw [Int.toNat_of_nonneg i1.1, Int.toNat_of_nonneg i2.1, show L.img.row0 + (cv.row.get r' - L.img.row0) = cv.row.get r' by omega,
      show L.img.col0 + (cv.col.get c' - L.img.col0) = cv.col.get c' by omega] at y1 y2 y3 y4
    refine ⟨⟨(cv.row.get r' - L.img.row0).toNat, (cv.col.get c' - L.img.col0).toNat, ?_⟩, o.row.get r' c', o.col.get r' c', ?_, ?_, ?_⟩
    · rw [← g1, ← g2, ← e2]
      omega
    · unfold InRange at key
      rw [y1, y2, y3, y4, u1, u2, u3, g1, g2, e2] at key
      rw [g5]
      exact key
    · intro x y hx0 hy0
      rw [g3, g4]
      exact C51_bounded_partial S hx r' c' (by rw [sh1]; exact hr') (by rw [sh2]; exact hc') x y hx0 hy0
    · have n1 := inner_point (half := half) b1 (by rw [x1, rowCoords_eq]) hr'
      have n2 := inner_point (half := half) b2 (by rw [x2, colCoords_eq]) hc'
      have own := subsampled_range hp (uniform_of_config _ _ _ _ _ _ e5) (uniform_of_config _ _ _ _ _ _ e6) b3 b1 b2 r2 hr' hc'
      obtain ⟨o1, o2⟩ := own L.rowDisp (by simp)
      obtain ⟨o3, o4⟩ := own L.colDisp (by simp)
      obtain ⟨-, al⟩ := C50_aligned S hx
      obtain ⟨a1, a2⟩ := al r' c' (by rw [sh1]; exact hr') (by rw [sh2]; exact hc')
      simp only [coordsOf] at a1 a2
      rw [o1, o2, o3, o4, y1, y2, y3, y4, g1, g2, ← g3, ← g4, n1, n2, g1, g2, e2] at a1
      rw [n1, n2, g1, g2, ← g3, ← g4, e2] at a2
      refine ⟨?_, fun hinn => ?_, fun hout => ?_⟩
      · by_cases hinn : InnerPoint s.left.img.row0 s.left.img.h s.plan.cfg.stepRow half R ∧
          InnerPoint s.left.img.col0 s.left.img.w s.plan.cfg.stepCol half C
        · obtain ⟨sr, sc, w1, w2, w3, w4⟩ := a1 hinn
          rw [w3, w4]
          exact ⟨insideOr_own _ _ _ _, insideOr_own _ _ _ _⟩
        · exact ⟨.inr (.inl (a2 hinn).2), .inr (.inl (a2 hinn).1)⟩
      · obtain ⟨sr, sc, w1, w2, w3, w4⟩ := a1 hinn
        exact ⟨sr, sc, w1, w2, _, rfl, w3, w4⟩
      · exact ⟨(a2 hout).2, (a2 hout).1⟩

end

/-- C96: for every successful execution with an optical flow and without estimation, every ROI inside the image or none, steps, subpixel
factor, kind of initial disparities, cost, solver and resampling: the three rasters hold exactly the points of the zone asked by the user.
The score of each pixel is the best cost of the pairs asked by the user, as without refinement (C87), and each disparity is invalid, NaN,
or moved from the best one by at most the number of iterations. Each disparity is NaN, invalid or strictly inside the interval asked by the
user for that pixel. It is given by the trajectory of the windows of the two images read around the pixel when there are points of the maps
at least half a window away on each side, and is invalid otherwise. -/
theorem C96_flow_files (w : World K) (user p0 mc inp l r f : Fields) (out : List (Written K)) (H W : Nat) (dRow dCol : Disp)
    (rf rl cf cl : Int) (sr sc : Nat) (invalid : F K) (tr : Option (Affine K)) (n it half : Nat) (me : Measure) (pc : Pandora.Cost K)
    (hw : user.wf) (hdisk : DiskContract w H W) (hpan : PandoraContract w) (hkeeps : PandoraKeeps w.pandora)
    (hoff : ∀ g v n, g.get "window_size" = some v → IsInt true v n → w.offset (.obj g) = ((n - 1) / 2).toNat)
    (hzoom : w.run.zoom = zoomLinear) (hu : user.get "pipeline" = some (.obj p0)) (he : p0.get "estimation" = none)
    (href : p0.get "refinement" = some (.obj f)) (hm : f.get "refinement_method" = some (.str "optical_flow"))
    (hit : FlowIterationsIs f it) (hmc : p0.get "matching_cost" = some (.obj mc)) (hmat : MatcherIs w mc n me pc)
    (hhalf : HalfWindowIs w mc half) (ask : Asks w user H W dRow dCol rf rl cf cl sr sc invalid) (hl : rl < H ∧ cl < W)
    (ht : LeftTransform w user tr)
    (hi : user.get "input" = some (.obj inp)) (hleft : inp.get "left" = some (.obj l)) (hright : inp.get "right" = some (.obj r))
    (h : Main.main w user = (out, none)) :
    ∃ files rest roi left right gmin gmax, ∃ (ml mr : Nat) (displaced : K → Img K), out = .rasters files :: rest ∧
      (∀ f ∈ [files.row, files.col, files.score], ZoneFile f tr rf rl cf cl sr sc) ∧
      ImagesRead w l r roi left right ∧ ReadZone left roi H W rf rl cf cl ∧
      GridIs gmin left dCol (-dCol.range - ml) ∧ GridIs gmax left dCol (dCol.range + mr) ∧
      (∀ dr : K, (∃ a : Int, dr * (n : K) = (a : K)) → Displaced (displaced dr) right dr) ∧
      ∀ i < files.row.h, ∀ j < files.row.w, ∀ R C, R = rf + (i : Int) * sr → C = cf + (j : Int) * sc →
        ∃ r0 c0, BestPair me (AskedPair dRow dCol n R C)
            (fun dr dc => pc left (displaced dr) gmin gmax (R - left.row0).toNat (C - left.col0).toNat dc) invalid r0 c0
            (files.score.values i j) ∧
          NearPair it invalid r0 c0 (files.row.values i j) (files.col.values i j) ∧
          (InsideOr (initAt dRow R C - dRow.range) (initAt dRow R C + dRow.range) invalid (files.row.values i j) ∧
              InsideOr (initAt dCol R C - dCol.range) (initAt dCol R C + dCol.range) invalid (files.col.values i j)) ∧
            (InnerPoint left.row0 left.h sr half R ∧ InnerPoint left.col0 left.w sc half C →
              FlowPixel w.run.flow half it left right R C
                (initAt dRow R C - dRow.range) (initAt dRow R C + dRow.range) (initAt dCol R C - dCol.range)
                (initAt dCol R C + dCol.range) invalid r0 c0 (files.row.values i j) (files.col.values i j)) ∧
            (¬ (InnerPoint left.row0 left.h sr half R ∧ InnerPoint left.col0 left.w sc half C) →
              files.row.values i j = invalid ∧ files.col.values i j = invalid) := by
  have hd : "disparity" ∈ p0.keys := by
    obtain ⟨pl, mc', disp, a1, a2, a3, -⟩ := ask.steps
    rw [hu, Option.some.injEq, J.obj.injEq] at a1
    subst a1
    exact (Fields.get_isSome _ _).1 (by rw [a3]; rfl)
  obtain ⟨s⟩ := main_stages w user p0 out hw hpan hu hd h
  obtain ⟨hn, dRow', dCol', half', it', ml, mr, gmin, gmax, -, k0, k1, -, i1, i2, -, i3, i4, i5, i6⟩ :=
    s.flowWinner hdisk hkeeps hoff hw hu ask.zone hl href hm hmc hmat
  obtain ⟨j1, j2⟩ := i1 he
  obtain ⟨⟨rfl, rfl⟩, ⟨rfl, rfl⟩, rfl⟩ := s.asked hw hu he ask j1 j2
  obtain rfl := flow_iterations_unique hit k1
  obtain rfl := half_unique hhalf k0
  rw [s.leftPath hw ht] at i3
  refine ⟨s.files, _, s.roi, s.left.img, s.right.img, gmin, gmax, ml, mr, slabImg w.run.zoom s.right.img n, s.outIs, i3,
    s.images hw hi hleft hright, i2, i4, i5, fun dr hdr => ?_, fun i hi' j hj R C hR hC => (i6 i hi' j hj R C hR hC).2⟩
  rw [hzoom]
  exact slab_displaced _ _ hn _ hdr

/-! ### Non-vacuity -/

theorem exFlow_wf : (exUserWhole 2 1 (some exFlow) (some (.int 0))).wf := by
  simp [exUserWhole, exInput, exPipeline, exFlow, dict, Fields.append, Fields.wf, J.wf, Fields.keys]

theorem exFlow_ok : Main.main (exWorldOf 1) (exUserWhole 2 1 (some exFlow) (some (.int 0))) =
    ((Main.main (exWorldOf 1) (exUserWhole 2 1 (some exFlow) (some (.int 0)))).1, none) := by
  have := exFlow_runs
  rw [← this]

/-- The hypotheses of `C96_flow_files` hold: a window of three pixels, steps of two rows and one column, without ROI. -/
example := C96_flow_files (exWorldOf 1) (exUserWhole 2 1 (some exFlow) (some (.int 0))) _ _ _ _ _ _ _ 5 3 ⟨.const 0, 1⟩ ⟨.const 0, 1⟩
  0 4 0 2 2 1 .nan (some ⟨1, 0, 100, 0, -1, 200⟩) 1 1 1 _ _ exFlow_wf (exWorldOf_contract 1 5 (by decide)).disk (exWorldOf_contract 1 5 (by decide)).pandora
  (exWorldOf_contract 1 5 (by decide)).keeps (exWorldOf_contract 1 5 (by decide)).offset rfl rfl rfl rfl rfl
  (.inl ⟨_, rfl, .inl rfl⟩) rfl ⟨_, _, _, _, _, _, rfl, rfl, rfl, .inl rfl, rfl, rfl⟩ ⟨_, _, _, _, rfl, .inl rfl⟩
  ⟨⟨_, rfl, ⟨_, _, _, rfl, rfl, rfl, .inl rfl, .inl ⟨_, .inl rfl, rfl⟩⟩, ⟨_, _, _, rfl, rfl, rfl, .inl rfl, .inl ⟨_, .inl rfl, rfl⟩⟩⟩,
    .inr ⟨rfl, rfl, rfl, rfl, rfl⟩,
    ⟨_, _, _, rfl, rfl, rfl, .inl ⟨_, _, rfl, .inl rfl, .inl rfl⟩, .inl ⟨_, rfl, .inr (.inr (.inl ⟨rfl, rfl⟩))⟩⟩⟩
  (by decide) ⟨_, _, _, rfl, rfl, rfl, fun g hg => by simp [exWorldOf, exWorld, isLeftSection, hg]; decide⟩ rfl rfl rfl exFlow_ok

end Verif.Props
