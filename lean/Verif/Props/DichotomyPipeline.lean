import Verif.Props.DichotomyRun

/-!
# The dichotomy after the matching cost and disparity steps: C42, C43, C44, C46, C61, C62
-/

set_option linter.unusedSectionVars false

namespace Verif.Props

open Verif Verif.Filters Verif.Disparity Verif.Dichotomy Verif.Spec Verif.MatchingCost Verif.ImgTools

variable {K : Type} [Field K] [LinearOrder K] [IsStrictOrderedRing K] [FloorRing K]

/-! ## C62 -/

theorem search_value {m : Measure} {f : IFilter K} {subpix : Nat} {surface : Arr2 (F K)} {p p' : Point K} {x : K}
    (h : search m f subpix surface p x = .ok p') :
    (p' = p) ∨ interpolate1 f surface (p'.posRow, p'.posCol) = .ok p'.cost := by
  obtain ⟨l, i, s, v, hl, hlen, hs, hv, rfl, -⟩ := search_ok h
  rcases candidate_of hl hv with ⟨rfl, rfl⟩ | ⟨hne, a, b, hm, hi⟩
  · left
    have hs' : s = (0, 0) := (Option.some.inj hs).symm
    subst hs'
    simp [moved]
  · right
    rw [hm] at hs
    have hs' := Option.some.inj hs
    subst hs'
    exact hi

theorem loop_value {m : Measure} {f : IFilter K} {subpix : Nat} {surface : Arr2 (F K)} : ∀ (xs : List K) (p p' : Point K),
    loop m f subpix surface p xs = .ok p' → p' = p ∨ interpolate1 f surface (p'.posRow, p'.posCol) = .ok p'.cost
  | [], p, p', h => .inl (Except.ok.inj h).symm
  | x :: xs, p, p', h => by
    unfold loop at h
    split at h
    · simp at h
    · rename_i q hq
      rcases loop_value xs q p' h with rfl | h2
      · exact search_value hq
      · exact .inr h2

section
variable {f : IFilter K} {it k : Nat} {cv : CostVolumes K} {invalid : F K} {rowMap colMap : Arr2 (F K)} {g : Grids} {out : Maps K}

/-- C62: the three maps agree. Either nothing changed and the score is the cost at the disparities of the pixel, or the score is the
value given by the filter at the position, in the cost surface of the pixel, of the refined disparities. -/
theorem C62_score_at_refined_disparities (h : refinementMethod f it cv invalid rowMap colMap g = .ok out) {mg : Margins}
    {cl ch rl rh : Int} (hs : cv.subpixel = 2 ^ k) (hac : IsAxis cv.dispCol cl ch mg.left mg.right cv.subpixel)
    (har : IsAxis cv.dispRow rl rh mg.up mg.down cv.subpixel) (r c i j : Nat) (hr : r < cv.row.n) (hc : c < cv.col.n)
    (hi : i < cv.dispCol.n) (hj : j < cv.dispRow.n) (er : rowMap.get r c = .fin (cv.dispRow.get j))
    (ec : colMap.get r c = .fin (cv.dispCol.get i)) (h1 : ¬ IsMark invalid (rowMap.get r c)) (h2 : ¬ IsMark invalid (colMap.get r c)) :
    (out.row.get r c = rowMap.get r c ∧ out.col.get r c = colMap.get r c ∧ out.cost.get r c = cv.data r c i j) ∨
    ∃ dr dc, out.row.get r c = .fin dr ∧ out.col.get r c = .fin dc ∧
      interpolate1 f ⟨cv.dispCol.n, cv.dispRow.n, cv.data r c⟩
        ((dr - (rl - mg.up : Int)) * cv.subpixel, (dc - (cl - mg.left : Int)) * cv.subpixel) = .ok (out.cost.get r c) := by
  have hsub : 0 < cv.subpixel := by rw [hs]; positivity
  have hsub' : (cv.subpixel : K) ≠ 0 := by exact_mod_cast hsub.ne'
  obtain ⟨v, hv, hp⟩ := method_pixel h hr hc
  rw [er, ec] at hv
  rw [costValue_axes hsub hac har r c i j hi hj (by rwa [← er]) (by rwa [← ec])] at hv
  have hv' := Except.ok.inj hv
  subst hv'
  rcases refinePixel_cases hp with ⟨he, -⟩ | ⟨-, -, -, dr, dc, p, e1, e2, hl, he⟩
  · rw [Cell.mk.injEq] at he
    exact .inl he
  · rw [Cell.mk.injEq] at he
    simp only at e1 e2
    have hdr : dr = cv.dispRow.get j := by rw [er] at e1; exact (F.fin.inj e1).symm
    have hdc : dc = cv.dispCol.get i := by rw [ec] at e2; exact (F.fin.inj e2).symm
    subst hdr; subst hdc
    rcases loop_value _ _ _ hl with rfl | hval
    · left
      exact ⟨he.1.trans er.symm, he.2.1.trans ec.symm, he.2.2⟩
    · right
      refine ⟨_, _, he.1, he.2.1, ?_⟩
      have hn := precisions_nonneg (K := K) k it
      rw [← hs] at hn
      obtain ⟨-, -, m3, m4⟩ := loop_moves _ _ _ hn hl
      simp only [searchAxis_get hsub har hj, searchAxis_get hsub hac hi] at m3 m4
      rw [har.2 j hj] at m3
      rw [hac.2 i hi] at m4
      have q1 : p.posRow = (p.dispRow - (rl - mg.up : Int)) * cv.subpixel := by
        field_simp at m3
        push_cast at m3 ⊢
        linear_combination m3
      have q2 : p.posCol = (p.dispCol - (cl - mg.left : Int)) * cv.subpixel := by
        field_simp at m4
        push_cast at m4 ⊢
        linear_combination m4
      rw [← q1, ← q2, he.2.2]
      exact hval

end

/-! ## The whole pipeline -/

section
variable {z : Zoom K} {pc : Pandora.Cost K} {cfg : Cfg} {roi : Option Roi} {left : Left K} {right : Img K}
  {mg : Margins} {cv : CostVolumes K} {f : IFilter K} {it k : Nat} {invalid : F K}

/-- The grids of the left dataset. -/
def gridsOf (left : Left K) : Grids := ⟨left.rowDisp.lo, left.rowDisp.hi, left.colDisp.lo, left.colDisp.hi⟩

theorem coords_fewer (m : Option Int) (c0 : Int) (n step : Nat) (hs : 2 ≤ step) (hn : 2 ≤ n) :
    (arangeA (startCoord m c0 step) (c0 + n) step).n < n := by
  by_contra hc
  push Not at hc
  have : n - 1 < (arangeA (startCoord m c0 step) (c0 + n) step).n := by omega
  have h1 := (arangeA_mem (by omega)).1 this
  have h2 := startCoord_ge m c0 step (by omega)
  have h3 : ((n - 1 : Nat) : Int) * 2 ≤ ((n - 1 : Nat) : Int) * step := by
    apply mul_le_mul_of_nonneg_left
    · exact_mod_cast hs
    · omega
  omega

/-- C61 is false of the code: whenever the step skips rows or columns of the image, the dichotomy raises, whatever the maps, the
filter, the margins, the region of interest and the number of iterations. -/
theorem C61_dichotomy_raises_with_step (hp : PairOk left right) (hs : 0 < cfg.subpix) (h1 : 1 ≤ cfg.stepRow)
    (h : computeCostVolumes z pc cfg roi left right (some mg) = .ok cv)
    (hst : (2 ≤ cfg.stepRow ∧ 2 ≤ left.img.h) ∨ (2 ≤ cfg.stepCol ∧ 2 ≤ left.img.w)) (rowMap colMap : Arr2 (F K)) :
    ∃ e, refinementMethod f it cv invalid rowMap colMap (gridsOf left) = .error e := by
  obtain ⟨e1, e2, -⟩ := compute_char hp hs h1 h
  rw [rowCoords_eq] at e1
  rw [colCoords_eq] at e2
  apply C61_other_shape_raises
  obtain ⟨a1, a2, -, -⟩ := hp.row.shape
  rcases hst with ⟨b1, b2⟩ | ⟨b1, b2⟩
  · left
    have := coords_fewer (rowMargin roi) left.img.row0 left.img.h cfg.stepRow b1 b2
    rw [← e1] at this
    simp only [gridsOf]
    omega
  · right
    have := coords_fewer (colMargin roi) left.img.col0 left.img.w cfg.stepCol b1 b2
    rw [← e2] at this
    simp only [gridsOf]
    omega

/-- The maps of the disparity step which are given to the dichotomy, with a step of one: each pixel is invalid, or its disparities are
candidates in the ranges of this pixel. -/
theorem dicho_initial (hp : PairOk left right) (hur : Uniform left.rowDisp left.img.h left.img.w)
    (huc : Uniform left.colDisp left.img.h left.img.w) (hpc : CostContract pc) (hsub : 0 < cfg.subpix) (h1 : cfg.stepRow = 1)
    (h2 : cfg.stepCol = 1) (h : computeCostVolumes z pc cfg roi left right (some mg) = .ok cv) {d : DispOut K}
    (ho : computeDispMaps invalid cv = .ok d) :
    (cv.subpixel = cfg.subpix ∧ cv.row.n = left.img.h ∧ cv.col.n = left.img.w ∧ (∀ i, cv.row.get i = left.img.row0 + i) ∧
      ∀ i, cv.col.get i = left.img.col0 + i) ∧
    IsAxis cv.dispCol left.colDisp.src.1 left.colDisp.src.2 mg.left mg.right cv.subpixel ∧
    IsAxis cv.dispRow left.rowDisp.src.1 left.rowDisp.src.2 mg.up mg.down cv.subpixel ∧
    (∀ r < cv.row.n, ∀ c < cv.col.n, ∀ i < cv.dispCol.n, ∀ j < cv.dispRow.n, cv.data r c i j ≠ worstOf cv.measure) ∧
    ∀ r < cv.row.n, ∀ c < cv.col.n, (d.row.get r c = invalid ∧ d.col.get r c = invalid) ∨
      ((∃ j < cv.dispRow.n, d.row.get r c = .fin (cv.dispRow.get j)) ∧ (∃ i < cv.dispCol.n, d.col.get r c = .fin (cv.dispCol.get i)) ∧
      DispInRange ((gridsOf left).rowMin.get r c) ((gridsOf left).rowMax.get r c) (d.row.get r c) ∧
      DispInRange ((gridsOf left).colMin.get r c) ((gridsOf left).colMax.get r c) (d.col.get r c)) := by
  obtain ⟨e1, e2, e3, e4, e5, e6, e7, hd⟩ := compute_char hp hsub (by omega) h
  have hac : IsAxis cv.dispCol left.colDisp.src.1 left.colDisp.src.2 mg.left mg.right cv.subpixel := by
    rw [e3, e6]; exact axisCol_spec hp (some mg) hsub
  have har : IsAxis cv.dispRow left.rowDisp.src.1 left.rowDisp.src.2 mg.up mg.down cv.subpixel := by
    rw [e4, e6]; exact axisRow_spec hp (some mg) hsub
  rw [rowCoords_eq, h1] at e1
  rw [colCoords_eq, h2] at e2
  obtain ⟨n1, g1⟩ := coords_step_one (rowMargin roi) left.img.row0 left.img.h
  obtain ⟨n2, g2⟩ := coords_step_one (colMargin roi) left.img.col0 left.img.w
  rw [← e1] at n1 g1
  rw [← e2] at n2 g2
  obtain ⟨q1, q2, q3, q4⟩ := hp.row.shape
  obtain ⟨q5, q6, q7, q8⟩ := hp.col.shape
  have hsubv : 0 < cv.subpixel := by rw [e6]; exact hsub
  have hwf : ∀ r < cv.row.n, ∀ c < cv.col.n, ∀ i < cv.dispCol.n, ∀ j < cv.dispRow.n, cv.data r c i j ≠ worstOf cv.measure := by
    intro r hr c hc i hi j hj
    rw [hd r hr c hc i hi j hj]
    unfold worstOf
    split_ifs
    · split <;> simp
    · split
      · exact (hpc.finite _ _ _ _ _ _ _).1
      · exact (hpc.finite _ _ _ _ _ _ _).2
  -- the initial maps
  have hinit : ∀ r < cv.row.n, ∀ c < cv.col.n, (d.row.get r c = invalid ∧ d.col.get r c = invalid) ∨
      ((∃ j < cv.dispRow.n, d.row.get r c = .fin (cv.dispRow.get j)) ∧ (∃ i < cv.dispCol.n, d.col.get r c = .fin (cv.dispCol.get i)) ∧
      DispInRange ((gridsOf left).rowMin.get r c) ((gridsOf left).rowMax.get r c) (d.row.get r c) ∧
      DispInRange ((gridsOf left).colMin.get r c) ((gridsOf left).colMax.get r c) (d.col.get r c)) := by
    intro r hr c hc
    by_cases hn : NoCand cv r c
    · obtain ⟨a, b, -⟩ := (C03_invalid_iff_no_candidate invalid cv d ho r c ⟨hr, hc⟩).1 hn
      exact .inl ⟨b, a⟩
    · right
      obtain ⟨⟨i, hi, ei⟩, ⟨j, hj, ej⟩, -⟩ := (C03_invalid_iff_no_candidate invalid cv d ho r c ⟨hr, hc⟩).2 hn
      have hi' := (userCol_src hp hsub (by omega) h hi).1
      have hj' := (userRow_src hp hsub (by omega) h hj).1
      have hnw : NoWorst cv r c := by
        intro i j hi hj
        exact hwf r hr c hc i (userCol_src hp hsub (by omega) h hi).1 j (userRow_src hp hsub (by omega) h hj).1
      refine ⟨⟨j, hj', ej⟩, ⟨i, hi', ei⟩, ?_⟩
      have hscore : d.score.get r c ≠ .nan := (C02_score_is_best invalid cv d ho r c ⟨hr, hc⟩ hn).1.1
      obtain ⟨i2, j2, hi2, hj2, ei2, ej2, ⟨j3, hj3, x1⟩, ⟨i3, hi3, x2⟩, -⟩ := pair_spec ho r c ⟨hr, hc⟩ hn hnw
      have u1 := userCol_src hp hsub (by omega) h hi2
      have u2 := userRow_src hp hsub (by omega) h hj2
      have u3 := userCol_src hp hsub (by omega) h hi3
      have u4 := userRow_src hp hsub (by omega) h hj3
      have nm1 : ¬ MaskedBy left.colDisp r c (cv.dispCol.get i2) := by
        intro hm
        rw [hd r hr c hc i2 u1.1 j3 u4.1, if_pos (Or.inr hm)] at x1
        exact hscore x1.symm
      have nm2 : ¬ MaskedBy left.rowDisp r c (cv.dispRow.get j2) := by
        intro hm
        rw [hd r hr c hc i3 u3.1 j2 u2.1, if_pos (Or.inl hm)] at x2
        exact hscore x2.symm
      obtain ⟨mk1, mk2⟩ := masked_in_volume hp hsub (by omega : 1 ≤ cfg.stepRow) h
      have t1 : (cv.row.get r - left.img.row0).toNat = r := by rw [g1 r]; omega
      have t2 : (cv.col.get c - left.img.col0).toNat = c := by rw [g2 c]; omega
      have o1 := own_range_of_unmasked hsubv (le_refl 1) (le_refl 1) hp.hpos hp.wpos hp.row hur har e1 e2 mk1 hr hc u2.2 nm2
      have o2 := own_range_of_unmasked hsubv (le_refl 1) (le_refl 1) hp.hpos hp.wpos hp.col huc hac e1 e2 mk2 hr hc u1.2 nm1
      rw [t1, t2] at o1 o2
      exact ⟨⟨_, ej2, o1⟩, ⟨_, ei2, o2⟩⟩
  exact ⟨⟨e6, n1, n2, g1, g2⟩, hac, har, hwf, hinit⟩

/-- Candidates are multiples of `1 / subpix`. -/
theorem candidate_multiple {a : Arr1 K} {lo hi : Int} {l r s : Nat} (hs : 0 < s) (h : IsAxis a lo hi l r s) {i : Nat} (hi' : i < a.n) {x : F K}
    (e : x = .fin (a.get i)) : Multiple s x := by
  refine ⟨_, e, (lo - l) * s + i, ?_⟩
  have : (s : K) ≠ 0 := by exact_mod_cast hs.ne'
  rw [h.2 i hi']; push_cast; field_simp

/-- C42, C46 on datasets: with a step of one, a subpixel factor which is a power of two, the margins asked for by the filter and
ranges of uniform width, the dichotomy always succeeds on the maps of the disparity step. Each pixel is invalid as before, or its
refined disparities are in the ranges of this pixel and differ by less than one step from the initial ones. -/
theorem C46_pipeline (hp : PairOk left right) (hur : Uniform left.rowDisp left.img.h left.img.w)
    (huc : Uniform left.colDisp left.img.h left.img.w) (hpc : CostContract pc) (hs : cfg.subpix = 2 ^ k) (h1 : cfg.stepRow = 1)
    (h2 : cfg.stepCol = 1) (hfit : FitsMargins f.left f.up f.size mg) (hco : HasCoeffs f it)
    (h : computeCostVolumes z pc cfg roi left right (some mg) = .ok cv) {d : DispOut K}
    (ho : computeDispMaps invalid cv = .ok d) :
    ∃ out, refinementMethod f it cv invalid d.row d.col (gridsOf left) = .ok out ∧
      ∀ r < left.img.h, ∀ c < left.img.w,
        (d.row.get r c = invalid ∧ d.col.get r c = invalid ∧ out.row.get r c = invalid ∧ out.col.get r c = invalid) ∨
        (DispInRange (left.rowDisp.lo.get r c) (left.rowDisp.hi.get r c) (out.row.get r c) ∧
          DispInRange (left.colDisp.lo.get r c) (left.colDisp.hi.get r c) (out.col.get r c) ∧
          WithinOf (1 / (cfg.subpix : K) - 1 / 2 ^ it) (d.row.get r c) (out.row.get r c) ∧
          WithinOf (1 / (cfg.subpix : K) - 1 / 2 ^ it) (d.col.get r c) (out.col.get r c)) := by
  have hsub : 0 < cfg.subpix := by rw [hs]; positivity
  obtain ⟨⟨e6, n1, n2, -, -⟩, hac, har, hwf, hinit⟩ := dicho_initial hp hur huc hpc hsub h1 h2 h ho
  obtain ⟨q1, q2, q3, q4⟩ := hp.row.shape
  obtain ⟨q5, q6, q7, q8⟩ := hp.col.shape
  have hs' : cv.subpixel = 2 ^ k := by rw [e6, hs]
  have hsubv : 0 < cv.subpixel := by rw [e6]; exact hsub
  obtain ⟨out, hout⟩ := C46_never_raises (f := f) (it := it) (invalid := invalid) (rowMap := d.row) (colMap := d.col) (g := gridsOf left)
    hs' hac har hfit hco (by simp only [gridsOf]; omega)
    (by
      intro r hr c hc
      obtain ⟨y1, y2⟩ := hp.row.inside r (by omega) c (by omega)
      obtain ⟨y3, y4⟩ := hp.col.inside r (by omega) c (by omega)
      exact ⟨y1, y2, y3, y4⟩) hwf hinit
  refine ⟨out, hout, ?_⟩
  intro r hr c hc
  have hr' : r < cv.row.n := by omega
  have hc' : c < cv.col.n := by omega
  rcases hinit r hr' c hc' with ⟨a, b⟩ | ⟨⟨j, hj, ej⟩, ⟨i, hi, ei⟩, i1, i2⟩
  · left
    obtain ⟨s1, s2⟩ := C44_disparities_kept_partial hout hsubv hac har r c hr' hc' (.inl (.inl a))
    exact ⟨a, b, s1.trans a, s2.trans b⟩
  · right
    have m1 : Multiple cv.subpixel (d.row.get r c) := candidate_multiple hsubv har hj ej
    have m2 : Multiple cv.subpixel (d.col.get r c) := candidate_multiple hsubv hac hi ei
    obtain ⟨r1, r2⟩ := C42_stays_in_range hout hs' r c hr' hc' m1 m2 i1 i2
    have := C40_displacement hout hs' r c hr' hc'
    rw [e6] at this
    exact ⟨r1, r2, this.1, this.2⟩

/-- C61 (partial: a step of one, the dichotomy): the refinement runs without error. -/
theorem C61_step_one_partial (hp : PairOk left right) (hur : Uniform left.rowDisp left.img.h left.img.w)
    (huc : Uniform left.colDisp left.img.h left.img.w) (hpc : CostContract pc) (hs : cfg.subpix = 2 ^ k) (h1 : cfg.stepRow = 1)
    (h2 : cfg.stepCol = 1) (hfit : FitsMargins f.left f.up f.size mg) (hco : HasCoeffs f it)
    (h : computeCostVolumes z pc cfg roi left right (some mg) = .ok cv) {d : DispOut K}
    (ho : computeDispMaps invalid cv = .ok d) :
    ∃ out, refinementMethod f it cv invalid d.row d.col (gridsOf left) = .ok out :=
  let ⟨out, ho, _⟩ := C46_pipeline hp hur huc hpc hs h1 h2 hfit hco h ho
  ⟨out, ho⟩

end

/-! ## Concrete runs -/

/-- Cost volumes of one pixel, for the ranges [-1, 1] with the margins of the bicubic filter, and a given cost function. -/
def onePixel (m : Measure) (cost : ℚ → ℚ → F ℚ) : CostVolumes ℚ where
  row := ⟨1, fun _ => 0⟩
  col := ⟨1, fun _ => 0⟩
  dispCol := ⟨6, fun i => -2 + (i : ℚ)⟩
  dispRow := ⟨6, fun j => -2 + (j : ℚ)⟩
  data := fun _ _ i j => cost (-2 + (i : ℚ)) (-2 + (j : ℚ))
  margins := some bicubicMargins
  subpixel := 1
  measure := m

def oneGrid (lo hi : Int) : Grids :=
  ⟨⟨1, 1, fun _ _ => lo⟩, ⟨1, 1, fun _ _ => hi⟩, ⟨1, 1, fun _ _ => lo⟩, ⟨1, 1, fun _ _ => hi⟩⟩

theorem onePixel_axes (m : Measure) (cost : ℚ → ℚ → F ℚ) :
    IsAxis (onePixel m cost).dispCol (-1) 1 bicubicMargins.left bicubicMargins.right (onePixel m cost).subpixel ∧
    IsAxis (onePixel m cost).dispRow (-1) 1 bicubicMargins.up bicubicMargins.down (onePixel m cost).subpixel := by
  constructor <;> refine ⟨by simp [onePixel, bicubicMargins], fun i _ => ?_⟩ <;> simp [onePixel, bicubicMargins]

/-- The two steps on one pixel: initial row, column, score, then refined row, column, score. -/
def runOne (m : Measure) (cost : ℚ → ℚ → F ℚ) (it : Nat) (invalid : F ℚ) : Option (List (F ℚ)) :=
  match computeDispMaps invalid (onePixel m cost) with
  | .error _ => none
  | .ok d =>
    match refinementMethod bicubic it (onePixel m cost) invalid d.row d.col (oneGrid (-1) 1) with
    | .error _ => none
    | .ok o => some [d.row.get 0 0, d.col.get 0 0, d.score.get 0 0, o.row.get 0 0, o.col.get 0 0, o.cost.get 0 0]

theorem runOne_some {m : Measure} {cost : ℚ → ℚ → F ℚ} {it : Nat} {invalid : F ℚ} {a b c d e f : F ℚ}
    (h : runOne m cost it invalid = some [a, b, c, d, e, f]) :
    ∃ x y, computeDispMaps invalid (onePixel m cost) = .ok x ∧
      refinementMethod bicubic it (onePixel m cost) invalid x.row x.col (oneGrid (-1) 1) = .ok y ∧
      x.row.get 0 0 = a ∧ x.col.get 0 0 = b ∧ x.score.get 0 0 = c ∧ y.row.get 0 0 = d ∧ y.col.get 0 0 = e ∧ y.cost.get 0 0 = f := by
  unfold runOne at h
  split at h
  · simp at h
  · rename_i x hx
    split at h
    · simp at h
    · rename_i y hy
      simp only [Option.some.injEq, List.cons.injEq, and_true] at h
      exact ⟨x, y, hx, hy, h⟩

/-- A paraboloid with its minimum at (row 1/4, column -1/4): the two iterations find it, from the initial disparities (0, 0). -/
theorem parabola_run : runOne .min (fun c r => .fin ((c + 1 / 4) ^ 2 + (r - 1 / 4) ^ 2)) 2 (.fin (-9999)) =
    some [.fin 0, .fin 0, .fin (1 / 8), .fin (1 / 4), .fin (-1 / 4), .fin 0] := by decide +kernel

/-- C43, full statement: the score after the refinement is not NaN and not worse than the score of the disparity step, for every pixel
which has a candidate. -/
def C43Statement (invalid : F ℚ) : Prop :=
  ∀ (cv : CostVolumes ℚ) (g : Grids) (it : Nat) (d : DispOut ℚ) (out : Maps ℚ), computeDispMaps invalid cv = .ok d →
    refinementMethod bicubic it cv invalid d.row d.col g = .ok out → ∀ r c, Pixel cv r c → ¬ NoCand cv r c →
      out.cost.get r c ≠ .nan ∧ AtLeastAsGood cv.measure (out.cost.get r c) (d.score.get r c)

/-- C43 is false when the best candidates are not unique (see also C05): the score of the disparity step is replaced by the cost at
the returned pair of disparities, which is worse here. -/
theorem C43_false_ties : ¬ C43Statement (.fin (-9999)) := by
  intro h
  have key : runOne .min (fun c r => if c = -1 ∧ r = 1 ∨ c = 1 ∧ r = -1 then .fin 0 else .fin 1) 2 (.fin (-9999)) =
      some [.fin (-1), .fin (-1), .fin 0, .fin (-1), .fin (-1), .fin 1] := by decide +kernel
  obtain ⟨x, y, hx, hy, -, -, hs, -, -, hc⟩ := runOne_some key
  have := (h _ _ _ _ _ hx hy 0 0 ⟨by decide, by decide⟩ (by
    intro hn
    have h11 := hn 1 1 (show 1 * 1 ≤ 1 ∧ 1 + 2 * 1 < 6 by omega) (show 1 * 1 ≤ 1 ∧ 1 + 2 * 1 < 6 by omega)
    revert h11
    decide +kernel)).2
  rw [hs, hc] at this
  have this : F.le (.fin 1 : F ℚ) (.fin 0) = true := this
  revert this
  decide +kernel

/-- C43 is false when the value chosen for invalid disparities is a disparity of the range (the configuration accepts any integer):
the score of a valid pixel becomes NaN. -/
theorem C43_false_invalid_in_range : ¬ C43Statement (.fin 0) := by
  intro h
  have key : runOne .min (fun c r => .fin ((c + 1 / 4) ^ 2 + (r - 1 / 4) ^ 2)) 2 (.fin 0) =
    some [.fin 0, .fin 0, .fin (1 / 8), .fin 0, .fin 0, .nan] := by decide +kernel
  obtain ⟨x, y, hx, hy, -, -, hs, -, -, hc⟩ := runOne_some key
  exact (h _ _ _ _ _ hx hy 0 0 ⟨by decide, by decide⟩ (by
    intro hn
    have h11 := hn 1 1 (show 1 * 1 ≤ 1 ∧ 1 + 2 * 1 < 6 by omega) (show 1 * 1 ≤ 1 ∧ 1 + 2 * 1 < 6 by omega)
    revert h11
    decide +kernel)).1 hc

/-- C44, full statement: an invalid pixel is the same in the three maps after the refinement. -/
def C44Statement (invalid : F ℚ) : Prop :=
  ∀ (cv : CostVolumes ℚ) (g : Grids) (it : Nat) (d : DispOut ℚ) (out : Maps ℚ), computeDispMaps invalid cv = .ok d →
    refinementMethod bicubic it cv invalid d.row d.col g = .ok out → ∀ r c, Pixel cv r c → NoCand cv r c →
      out.row.get r c = d.row.get r c ∧ out.col.get r c = d.col.get r c ∧ out.cost.get r c = d.score.get r c

/-- C44 is false: the score of an invalid pixel, which was the invalid disparity, becomes NaN. -/
theorem C44_false_score : ¬ C44Statement (.fin (-9999)) := by
  intro h
  have key : runOne .min (fun _ _ => .nan) 2 (.fin (-9999)) =
    some [.fin (-9999), .fin (-9999), .fin (-9999), .fin (-9999), .fin (-9999), .nan] := by decide +kernel
  obtain ⟨x, y, hx, hy, -, -, hs, -, -, hc⟩ := runOne_some key
  have := (h _ _ _ _ _ hx hy 0 0 ⟨by decide, by decide⟩ (fun i j _ _ => rfl)).2.2
  rw [hs, hc] at this
  simp at this

/-- Edge pixel: at the end of its range, the pixel is kept although the minimum of the interpolated costs is elsewhere. -/
example : runOne .min (fun c r => .fin ((c - 5 / 4) ^ 2 + (r - 1 / 4) ^ 2)) 2 (.fin (-9999)) =
    some [.fin 0, .fin 1, .fin (1 / 8), .fin 0, .fin 1, .fin (1 / 8)] := by decide +kernel

/-- With a NaN in the windows of the filter, the candidates are NaN and the pixel keeps its disparities and cost. -/
example : runOne .min (fun c r => if c = 1 ∧ r = 1 then .nan else .fin ((c + 1 / 4) ^ 2 + (r - 1 / 4) ^ 2)) 2 (.fin (-9999)) =
    some [.fin 0, .fin 0, .fin (1 / 8), .fin 0, .fin 0, .fin (1 / 8)] := by decide +kernel

/-- The hypotheses of `C46_pipeline` are met by the pair of the example of C09, with the bicubic filter. -/
example : PairOk exLeft exRightImg ∧ Uniform exLeft.rowDisp exLeft.img.h exLeft.img.w ∧
    Uniform exLeft.colDisp exLeft.img.h exLeft.img.w ∧ CostContract exCost ∧ HasCoeffs (bicubic : IFilter ℚ) 9 ∧
    ∃ cv, computeCostVolumes zoomLinear exCost ⟨2 ^ 1, 1, 1, .min⟩ none exLeft exRightImg (some bicubicMargins) = .ok cv :=
  ⟨exPair, ⟨2, fun r _ c _ => by simp only [exLeft, exMMRow]; omega⟩, ⟨2, fun r _ c _ => by simp [exLeft, exMMCol]⟩, exCost_contract,
    bicubic_has_coeffs 9, volumes_exist_step_one exPair (by decide) rfl rfl⟩

/-- The hypotheses of `C61_dichotomy_raises_with_step` are met: with constant ranges the volumes exist for a step of two. -/
def exConst : Left ℚ := ⟨exLeftImg, exMMCol, ⟨⟨5, 3, fun _ _ => 0⟩, ⟨5, 3, fun _ _ => 1⟩, (0, 1)⟩⟩

example : ((computeCostVolumes zoomLinear exCost ⟨1, 2, 1, .min⟩ none exConst exRightImg (some bicubicMargins)).toOption.map
    fun cv => (cv.row.n, exConst.rowDisp.lo.h)) = some (3, 5) := by decide +kernel

end Verif.Props
