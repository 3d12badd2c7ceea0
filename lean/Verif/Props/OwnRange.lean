import Verif.Props.MatchingCost
import Verif.Spec.OwnRange

/-!
# Property C09: the chosen disparities respect the range of their own pixel
-/

set_option linter.unusedSectionVars false

namespace Verif.Props

open Verif Verif.ImgTools Verif.MatchingCost Verif.Spec Verif.Disparity

variable {K : Type} [Field K] [LinearOrder K] [IsStrictOrderedRing K] [FloorRing K]

section
variable {z : Zoom K} {pc : Pandora.Cost K} {cfg : Cfg} {roi : Option Roi} {left : Left K} {right : Img K}
  {margins : Option Margins} {cv : CostVolumes K}

/-- When the volumes are computed, every masked cell of the grids exists in the volumes. -/
theorem masked_in_volume (hp : PairOk left right) (hs : 0 < cfg.subpix) (h1 : 1 ≤ cfg.stepRow)
    (h : computeCostVolumes z pc cfg roi left right margins = .ok cv) :
    (∀ j < cv.dispRow.n, ∀ r c, MaskedBy left.rowDisp r c (cv.dispRow.get j) → r < cv.row.n ∧ c < cv.col.n) ∧
    (∀ i < cv.dispCol.n, ∀ r c, MaskedBy left.colDisp r c (cv.dispCol.get i) → r < cv.row.n ∧ c < cv.col.n) := by
  obtain ⟨filled, ⟨n0, n1, n2, n3⟩, hf, e⟩ := compute_unfold z pc cfg roi left right margins hp hs h1
  rw [e] at h
  simp only [bind, Except.bind] at h
  split at h
  · simp at h
  · rename_i m1 hm1
    split at h
    · simp at h
    · rename_i m2 hm2
      simp only [pure, Except.pure, Except.ok.injEq] at h
      subst h
      obtain ⟨⟨a0, a1, a2, a3⟩, -⟩ := Common.setOutOfRow_ok hm1
      constructor
      · intro j hj r c hm
        by_contra hno
        unfold Common.setOutOfRow at hm1
        rw [Common.setRow_error] at hm1
        · simp at hm1
        · refine ⟨j, by rw [n3]; exact hj, (r, c), (Common.mem_masking _ _ _ _ _ _).2 hm, ?_⟩
          rw [n0, n1]
          exact hno
      · intro i hi r c hm
        by_contra hno
        unfold Common.setOutOfCol at hm2
        rw [Common.setCol_error] at hm2
        · simp at hm2
        · refine ⟨i, by rw [a2, n2]; exact hi, (r, c), (Common.mem_masking _ _ _ _ _ _).2 hm, ?_⟩
          rw [a0, a1, n0, n1]
          exact hno

/-- The only failure on a well formed pair is `IndexError`. -/
theorem ok_or_index_error (hp : PairOk left right) (hs : 0 < cfg.subpix) (h1 : 1 ≤ cfg.stepRow) :
    (∃ cv, computeCostVolumes z pc cfg roi left right margins = .ok cv) ∨
      computeCostVolumes z pc cfg roi left right margins = .error .indexError := by
  obtain ⟨filled, -, -, e⟩ := compute_unfold z pc cfg roi left right margins hp hs h1
  rw [e]
  by_cases hex : ∃ j < filled.n3, ∃ p ∈ Common.masking ((axisRow left margins cfg.subpix).get j) (castG left.rowDisp.lo)
      (castG left.rowDisp.hi) (castS left.rowDisp.src), ¬ (p.1 < filled.n0 ∧ p.2 < filled.n1)
  · right
    unfold Common.setOutOfRow
    rw [Common.setRow_error _ _ _ _ _ _ _ hex]
    rfl
  · push Not at hex
    obtain ⟨m1, hm1, -⟩ := Common.setOutOfRow_go _ _ _ F.nan _ filled.n3 filled (fun j hj p hp => hex j hj p hp)
    have hm1' : Common.setOutOfRow filled (axisRow left margins cfg.subpix) (castG left.rowDisp.lo)
      (castG left.rowDisp.hi) .nan (castS left.rowDisp.src) = .ok m1 := hm1
    rw [hm1']
    simp only [bind, Except.bind]
    by_cases hex2 : ∃ j < m1.n2, ∃ p ∈ Common.masking ((axisCol left margins cfg.subpix).get j) (castG left.colDisp.lo)
        (castG left.colDisp.hi) (castS left.colDisp.src), ¬ (p.1 < m1.n0 ∧ p.2 < m1.n1)
    · right
      unfold Common.setOutOfCol
      rw [Common.setCol_error _ _ _ _ _ _ _ hex2]
    · push Not at hex2
      obtain ⟨m2, hm2, -⟩ := Common.setOutOfCol_go _ _ _ F.nan _ m1.n2 m1 (fun j hj p hp => hex2 j hj p hp)
      have hm2' : Common.setOutOfCol m1 (axisCol left margins cfg.subpix) (castG left.colDisp.lo)
        (castG left.colDisp.hi) .nan (castS left.colDisp.src) = .ok m2 := hm2
      rw [hm2']
      exact Or.inl ⟨_, rfl⟩

theorem axis_has {a : Arr1 K} {lo hi : Int} {ml mr s : Nat} (hs : 0 < s) (hle : lo ≤ hi) (ha : IsAxis a lo hi ml mr s)
    {x : Int} (h1 : lo ≤ x) (h2 : x ≤ hi) : ∃ i < a.n, a.get i = (x : K) := by
  have hs' : (s : K) ≠ 0 := by positivity
  have e : ((x * s : Int) : K) / (s : K) = (x : K) := by push_cast; field_simp
  obtain ⟨i, hi', e', -⟩ := (axis_lattice hs hle ha).complete (x * s)
    (by rw [e]; exact_mod_cast (by omega : lo - (ml : Int) ≤ x))
    (by rw [e]; exact_mod_cast (by omega : x ≤ hi + (mr : Int)))
  exact ⟨i, hi', by rw [e', e]⟩

/-- Grids of uniform width larger than the volume: they are constant, otherwise a cell outside the volume is masked. -/
theorem constant_of_larger {M : MinMax} {h w n0 n1 : Nat} {a : Arr1 K} {ml mr s : Nat} (hs : 0 < s)
    (hh : 0 < h) (hw : 0 < w) (hM : RangesOk M h w) (hu : Uniform M h w) (ha : IsAxis a M.src.1 M.src.2 ml mr s)
    (hmk : ∀ j < a.n, ∀ r c, MaskedBy M r c (a.get j) → r < n0 ∧ c < n1) (hno : ¬ (h ≤ n0 ∧ w ≤ n1)) :
    ConstantRange M h w := by
  obtain ⟨wd, hu⟩ := hu
  have hle := src_le hM
  have hin := hM.inside (h - 1) (by omega) (w - 1) (by omega)
  have hord := hM.ordered (h - 1) (by omega) (w - 1) (by omega)
  have key : ∀ x : Int, M.src.1 ≤ x → x ≤ M.src.2 → M.lo.get (h - 1) (w - 1) ≤ x ∧ x ≤ M.hi.get (h - 1) (w - 1) := by
    intro x hx1 hx2
    by_contra hout
    obtain ⟨j, hj, e⟩ := axis_has hs hle ha hx1 hx2
    have := hmk j hj (h - 1) (w - 1) (by
      rw [e, maskedBy_iff hM (by omega) (by omega)]
      refine ⟨fun hc => hout ?_, ?_⟩
      · exact ⟨by exact_mod_cast hc.1, by exact_mod_cast hc.2⟩
      · exact ⟨by exact_mod_cast hx1, by exact_mod_cast hx2⟩)
    omega
  have k1 := key M.src.1 (le_refl _) hle
  have k2 := key M.src.2 hle (le_refl _)
  have hw0 := hu (h - 1) (by omega) (w - 1) (by omega)
  intro r hr c hc
  have h1 := hM.inside r hr c hc
  have h2 := hu r hr c hc
  omega

/-- A volume which has as many rows as the image has exactly the rows of the image. -/
theorem full_coords (m : Option Int) (c0 : Int) (n step : Nat) (hs : 1 ≤ step) (hn : 0 < n)
    (hle : n ≤ (arangeA (startCoord m c0 step) (c0 + n) step).n) {k : Nat}
    (hk : k < (arangeA (startCoord m c0 step) (c0 + n) step).n) :
    (arangeA (startCoord m c0 step) (c0 + n) step).get k = c0 + k := by
  have hg := startCoord_ge m c0 step hs
  have h1 := (arangeA_mem hs).1 hk
  have hlt : n - 1 < (arangeA (startCoord m c0 step) (c0 + n) step).n := by omega
  have h2 := (arangeA_mem hs).1 hlt
  unfold arangeA
  simp only
  obtain ⟨n', rfl⟩ : ∃ n', n = n' + 1 := ⟨n - 1, by omega⟩
  rw [Nat.add_sub_cancel] at h2
  push_cast at h1 h2
  by_cases hst : step = 1
  · subst hst; push_cast at *; omega
  · have hst2 : (2 : Int) ≤ step := by omega
    have h3 : (n' : Int) * 2 ≤ n' * step := by
      apply mul_le_mul_of_nonneg_left hst2; positivity
    have h4 : (k : Int) * 2 ≤ k * step := by
      apply mul_le_mul_of_nonneg_left hst2; positivity
    have : n' = 0 := by omega
    subst this
    have : k = 0 := by push_cast at *; omega
    subst this
    push_cast at *
    omega

/-- A cell which is not masked has a disparity inside the range of its own pixel. -/
theorem own_range_of_unmasked {M : MinMax} {h w : Nat} {rows cols : Arr1 Int} {row0 col0 : Int} {sr sc : Nat}
    {mr' mc' : Option Int} {a : Arr1 K} {ml mr s : Nat} (hs : 0 < s) (h1 : 1 ≤ sr) (h2 : 1 ≤ sc)
    (hh : 0 < h) (hw : 0 < w) (hM : RangesOk M h w) (hu : Uniform M h w) (ha : IsAxis a M.src.1 M.src.2 ml mr s)
    (er : rows = arangeA (startCoord mr' row0 sr) (row0 + h) sr) (ec : cols = arangeA (startCoord mc' col0 sc) (col0 + w) sc)
    (hmk : ∀ j < a.n, ∀ r c, MaskedBy M r c (a.get j) → r < rows.n ∧ c < cols.n)
    {r c : Nat} (hr : r < rows.n) (hc : c < cols.n) {d : K} (hd : (M.src.1 : K) ≤ d ∧ d ≤ (M.src.2 : K))
    (hnm : ¬ MaskedBy M r c d) :
    (M.lo.get (rows.get r - row0).toNat (cols.get c - col0).toNat : K) ≤ d ∧
      d ≤ (M.hi.get (rows.get r - row0).toNat (cols.get c - col0).toNat : K) := by
  have i1 : 0 ≤ rows.get r - row0 ∧ rows.get r - row0 < h := by
    rw [er] at hr ⊢; exact coords_in _ _ _ _ h1 hr
  have i2 : 0 ≤ cols.get c - col0 ∧ cols.get c - col0 < w := by
    rw [ec] at hc ⊢; exact coords_in _ _ _ _ h2 hc
  by_cases hbig : h ≤ rows.n ∧ w ≤ cols.n
  · have e1 : rows.get r = row0 + r := by
      rw [er] at hr hbig ⊢; exact full_coords _ _ _ _ h1 hh hbig.1 hr
    have e2 : cols.get c = col0 + c := by
      rw [ec] at hc hbig ⊢; exact full_coords _ _ _ _ h2 hw hbig.2 hc
    rw [e1, e2, show (row0 + (r : Int) - row0).toNat = r by omega, show (col0 + (c : Int) - col0).toNat = c by omega]
    rw [maskedBy_iff hM (by omega) (by omega)] at hnm
    by_contra hout
    exact hnm ⟨hout, hd⟩
  · have hcst := constant_of_larger hs hh hw hM hu ha hmk hbig
    obtain ⟨q1, q2⟩ := hcst (rows.get r - row0).toNat (by omega) (cols.get c - col0).toNat (by omega)
    rw [q1, q2]
    exact hd

/-- The examined column disparities lie in the global range of the user. -/
theorem userCol_src (hp : PairOk left right) (hs : 0 < cfg.subpix) (h1 : 1 ≤ cfg.stepRow)
    (h : computeCostVolumes z pc cfg roi left right margins = .ok cv) {i : Nat} (hi : UserCol cv i) :
    i < cv.dispCol.n ∧ (left.colDisp.src.1 : K) ≤ cv.dispCol.get i ∧ cv.dispCol.get i ≤ (left.colDisp.src.2 : K) := by
  obtain ⟨-, -, e3, -, e5, e6, -, -⟩ := compute_char hp hs h1 h
  have hax := axisCol_spec hp margins hs
  rw [← e3] at hax
  have hlt : i < cv.dispCol.n := by
    unfold UserCol at hi
    split at hi <;> omega
  refine ⟨hlt, ?_⟩
  have key := C04_col_range_exact { cv with margins := some (mgD margins) } (mgD margins) left.colDisp.src.1
    left.colDisp.src.2 rfl (by show 0 < cv.subpixel; omega) (src_le hp.col) (by show IsAxis cv.dispCol _ _ _ _ cv.subpixel; rw [e6]; exact hax) i hlt
  apply key.1
  unfold UserCol at hi ⊢
  rw [e5] at hi
  cases margins with
  | none => simp [mgD] at hi ⊢; exact hi
  | some m => exact hi

/-- The examined row disparities lie in the global range of the user. -/
theorem userRow_src (hp : PairOk left right) (hs : 0 < cfg.subpix) (h1 : 1 ≤ cfg.stepRow)
    (h : computeCostVolumes z pc cfg roi left right margins = .ok cv) {i : Nat} (hi : UserRow cv i) :
    i < cv.dispRow.n ∧ (left.rowDisp.src.1 : K) ≤ cv.dispRow.get i ∧ cv.dispRow.get i ≤ (left.rowDisp.src.2 : K) := by
  obtain ⟨-, -, -, e3, e5, e6, -, -⟩ := compute_char hp hs h1 h
  have hax := axisRow_spec hp margins hs
  rw [← e3] at hax
  have hlt : i < cv.dispRow.n := by
    unfold UserRow at hi
    split at hi <;> omega
  refine ⟨hlt, ?_⟩
  have key := C04_row_range_exact { cv with margins := some (mgD margins) } (mgD margins) left.rowDisp.src.1
    left.rowDisp.src.2 rfl (by show 0 < cv.subpixel; omega) (src_le hp.row) (by show IsAxis cv.dispRow _ _ _ _ cv.subpixel; rw [e6]; exact hax) i hlt
  apply key.1
  unfold UserRow at hi ⊢
  rw [e5] at hi
  cases margins with
  | none => simp [mgD] at hi ⊢; exact hi
  | some m => exact hi

/-- C09 on datasets: for every step, subpixel factor, margins, region of interest and image size, each pixel of the maps is
invalid in both maps, or receives a row and a column disparity which lie in the row and column ranges stored at the
position of this very pixel. -/
theorem C09_own_range (hp : PairOk left right) (hur : Uniform left.rowDisp left.img.h left.img.w)
    (huc : Uniform left.colDisp left.img.h left.img.w) (hpc : CostContract pc) (hs : 0 < cfg.subpix)
    (h1 : 1 ≤ cfg.stepRow) (h2 : 1 ≤ cfg.stepCol)
    (h : computeCostVolumes z pc cfg roi left right margins = .ok cv) {invalid : F K} {out : DispOut K}
    (ho : computeDispMaps invalid cv = .ok out) {r c : Nat} (hpx : Pixel cv r c) :
    (out.row.get r c = invalid ∧ out.col.get r c = invalid ∧ out.score.get r c = invalid) ∨
    ∃ dr dc, out.row.get r c = .fin dr ∧ out.col.get r c = .fin dc ∧
      ((left.rowDisp.lo.get (cv.row.get r - left.img.row0).toNat (cv.col.get c - left.img.col0).toNat : K) ≤ dr ∧
        dr ≤ (left.rowDisp.hi.get (cv.row.get r - left.img.row0).toNat (cv.col.get c - left.img.col0).toNat : K)) ∧
      ((left.colDisp.lo.get (cv.row.get r - left.img.row0).toNat (cv.col.get c - left.img.col0).toNat : K) ≤ dc ∧
        dc ≤ (left.colDisp.hi.get (cv.row.get r - left.img.row0).toNat (cv.col.get c - left.img.col0).toNat : K)) := by
  by_cases hn : NoCand cv r c
  · obtain ⟨a, b, d⟩ := (C03_invalid_iff_no_candidate invalid cv out ho r c hpx).1 hn
    exact Or.inl ⟨b, a, d⟩
  · right
    obtain ⟨e1, e2, e3, e4, e5, e6, e7, hd⟩ := compute_char hp hs h1 h
    have hw : NoWorst cv r c := by
      intro i j hi hj
      obtain ⟨hi', -⟩ := userCol_src hp hs h1 h hi
      obtain ⟨hj', -⟩ := userRow_src hp hs h1 h hj
      rw [hd r hpx.1 c hpx.2 i hi' j hj']
      split_ifs
      · split <;> simp
      · split
        · exact (hpc.finite _ _ _ _ _ _ _).1
        · exact (hpc.finite _ _ _ _ _ _ _).2
    have hscore : out.score.get r c ≠ .nan := (C02_score_is_best invalid cv out ho r c hpx hn).1.1
    obtain ⟨i, j, hi, hj, ei, ej, ⟨j1, hj1, x1⟩, ⟨i1, hi1, x2⟩, -⟩ := pair_spec ho r c hpx hn hw
    obtain ⟨hi', hi2⟩ := userCol_src hp hs h1 h hi
    obtain ⟨hj', hj2⟩ := userRow_src hp hs h1 h hj
    obtain ⟨hi1', -⟩ := userCol_src hp hs h1 h hi1
    obtain ⟨hj1', -⟩ := userRow_src hp hs h1 h hj1
    have n1 : ¬ MaskedBy left.colDisp r c (cv.dispCol.get i) := by
      intro hm
      rw [hd r hpx.1 c hpx.2 i hi' j1 hj1', if_pos (Or.inr hm)] at x1
      exact hscore x1.symm
    have n2 : ¬ MaskedBy left.rowDisp r c (cv.dispRow.get j) := by
      intro hm
      rw [hd r hpx.1 c hpx.2 i1 hi1' j hj', if_pos (Or.inl hm)] at x2
      exact hscore x2.symm
    obtain ⟨mk1, mk2⟩ := masked_in_volume hp hs h1 h
    rw [rowCoords_eq] at e1
    rw [colCoords_eq] at e2
    refine ⟨_, _, ej, ei, ?_, ?_⟩
    · exact own_range_of_unmasked hs h1 h2 hp.hpos hp.wpos hp.row hur (by rw [e4]; exact axisRow_spec hp margins hs)
        e1 e2 mk1 hpx.1 hpx.2 hj2 n2
    · exact own_range_of_unmasked hs h1 h2 hp.hpos hp.wpos hp.col huc (by rw [e3]; exact axisCol_spec hp margins hs)
        e1 e2 mk2 hpx.1 hpx.2 hi2 n1

/-- Hypotheses of C09 met by what `add_disparity_grid` writes. -/
theorem uniform_of_config (row0 col0 : Int) (h w : Nat) (d : Disp) (L : MinMax)
    (hL : getMinMax row0 col0 h w d false = .ok L) : Uniform L h w := by
  obtain ⟨_, _, _, _, hx⟩ := C10_right_range_opposite row0 col0 h w d L hL
  exact ⟨2 * d.range, fun r hr c hc => (hx r hr c hc).2.2.1⟩

/-- C09: with the ranges written in the left dataset from the configured disparities (constants or grids, `range ≥ 0`), for
every step, subpixel factor, margins, region of interest and image size, each pixel of the disparity maps is invalid in the
three maps, or its row (column) disparity is in `[init - range, init + range]` for the row (column) initial disparity
configured at its own coordinates. -/
theorem C09_configured_range (dRow dCol : Disp) (hrr : 0 ≤ dRow.range) (hrc : 0 ≤ dCol.range)
    (hh : 0 < left.img.h) (hw : 0 < left.img.w) (hH : right.h = left.img.h) (hW : right.w = left.img.w)
    (cr : Covers dRow left.img.row0 left.img.col0 left.img.h left.img.w)
    (cc : Covers dCol left.img.row0 left.img.col0 left.img.h left.img.w)
    (gr : getMinMax left.img.row0 left.img.col0 left.img.h left.img.w dRow false = .ok left.rowDisp)
    (gc : getMinMax left.img.row0 left.img.col0 left.img.h left.img.w dCol false = .ok left.colDisp)
    (hpc : CostContract pc) (hs : 0 < cfg.subpix) (h1 : 1 ≤ cfg.stepRow) (h2 : 1 ≤ cfg.stepCol)
    (h : computeCostVolumes z pc cfg roi left right margins = .ok cv) {invalid : F K} {out : DispOut K}
    (ho : computeDispMaps invalid cv = .ok out) {r c : Nat} (hpx : Pixel cv r c) :
    (out.row.get r c = invalid ∧ out.col.get r c = invalid ∧ out.score.get r c = invalid) ∨
    ∃ dr dc, out.row.get r c = .fin dr ∧ out.col.get r c = .fin dc ∧
      (((initAt dRow (cv.row.get r) (cv.col.get c) - dRow.range : Int) : K) ≤ dr ∧
        dr ≤ ((initAt dRow (cv.row.get r) (cv.col.get c) + dRow.range : Int) : K)) ∧
      (((initAt dCol (cv.row.get r) (cv.col.get c) - dCol.range : Int) : K) ≤ dc ∧
        dc ≤ ((initAt dCol (cv.row.get r) (cv.col.get c) + dCol.range : Int) : K)) := by
  have hp : PairOk left right := ⟨hh, hw, hH, hW, ranges_wf _ _ _ _ _ _ _ hh hw hrc gc, ranges_wf _ _ _ _ _ _ _ hh hw hrr gr⟩
  rcases C09_own_range hp (uniform_of_config _ _ _ _ _ _ gr) (uniform_of_config _ _ _ _ _ _ gc) hpc hs h1 h2 h ho hpx with
    hl | ⟨dr, dc, e1, e2, b1, b2⟩
  · exact Or.inl hl
  · right
    refine ⟨dr, dc, e1, e2, ?_, ?_⟩
    all_goals
      obtain ⟨q1, q2, -⟩ := compute_char hp hs h1 h
      rw [rowCoords_eq] at q1
      rw [colCoords_eq] at q2
      have i1 : 0 ≤ cv.row.get r - left.img.row0 ∧ cv.row.get r - left.img.row0 < left.img.h := by
        have := hpx.1
        rw [q1] at this ⊢; exact coords_in _ _ _ _ h1 this
      have i2 : 0 ≤ cv.col.get c - left.img.col0 ∧ cv.col.get c - left.img.col0 < left.img.w := by
        have := hpx.2
        rw [q2] at this ⊢; exact coords_in _ _ _ _ h2 this
    · obtain ⟨L, hL, hx⟩ := C10_left_range_centred left.img.row0 left.img.col0 left.img.h left.img.w dRow cr
      rw [gr] at hL
      obtain rfl := (Except.ok.inj hL)
      obtain ⟨y1, y2⟩ := hx (cv.row.get r - left.img.row0).toNat (by omega) (cv.col.get c - left.img.col0).toNat (by omega)
      rw [Int.toNat_of_nonneg i1.1, Int.toNat_of_nonneg i2.1] at y1 y2
      rw [show left.img.row0 + (cv.row.get r - left.img.row0) = cv.row.get r by omega,
        show left.img.col0 + (cv.col.get c - left.img.col0) = cv.col.get c by omega] at y1 y2
      rw [y1, y2] at b1
      exact b1
    · obtain ⟨L, hL, hx⟩ := C10_left_range_centred left.img.row0 left.img.col0 left.img.h left.img.w dCol cc
      rw [gc] at hL
      obtain rfl := (Except.ok.inj hL)
      obtain ⟨y1, y2⟩ := hx (cv.row.get r - left.img.row0).toNat (by omega) (cv.col.get c - left.img.col0).toNat (by omega)
      rw [Int.toNat_of_nonneg i1.1, Int.toNat_of_nonneg i2.1] at y1 y2
      rw [show left.img.row0 + (cv.row.get r - left.img.row0) = cv.row.get r by omega,
        show left.img.col0 + (cv.col.get c - left.img.col0) = cv.col.get c by omega] at y1 y2
      rw [y1, y2] at b2
      exact b2

/-- Error branch of C09: with a step which skips a row or a column, ranges of uniform width that are not the same for all
the pixels make the computation of the cost volumes fail (the grids of the image are used as masks of the smaller
volume). -/
theorem C09_variable_ranges_with_step_raise (hp : PairOk left right)
    (hur : Uniform left.rowDisp left.img.h left.img.w) (huc : Uniform left.colDisp left.img.h left.img.w)
    (hs : 0 < cfg.subpix) (h1 : 1 ≤ cfg.stepRow)
    (hst : (2 ≤ cfg.stepRow ∧ 2 ≤ left.img.h) ∨ (2 ≤ cfg.stepCol ∧ 2 ≤ left.img.w))
    (hv : ¬ ConstantRange left.rowDisp left.img.h left.img.w ∨ ¬ ConstantRange left.colDisp left.img.h left.img.w) :
    computeCostVolumes z pc cfg roi left right margins = .error .indexError := by
  rcases ok_or_index_error (z := z) (pc := pc) (roi := roi) (margins := margins) hp hs h1 with ⟨cv, h⟩ | h
  · exfalso
    obtain ⟨e1, e2, e3, e4, -⟩ := compute_char hp hs h1 h
    obtain ⟨mk1, mk2⟩ := masked_in_volume hp hs h1 h
    rw [rowCoords_eq] at e1
    rw [colCoords_eq] at e2
    have small : ∀ (m : Option Int) (c0 : Int) (n step : Nat), 2 ≤ step → 2 ≤ n →
        (arangeA (startCoord m c0 step) (c0 + n) step).n < n := by
      intro m c0 n step hst hn
      by_contra hge
      push Not at hge
      have a := full_coords m c0 n step (by omega) (by omega) hge (k := 1) (by omega)
      have b := full_coords m c0 n step (by omega) (by omega) hge (k := 0) (by omega)
      unfold arangeA at a b
      simp only at a b
      push_cast at a b
      omega
    have hno : ¬ (left.img.h ≤ cv.row.n ∧ left.img.w ≤ cv.col.n) := by
      rw [e1, e2]
      rintro ⟨q1, q2⟩
      rcases hst with ⟨s1, s2⟩ | ⟨s1, s2⟩
      · have := small (rowMargin roi) left.img.row0 left.img.h cfg.stepRow s1 s2; omega
      · have := small (colMargin roi) left.img.col0 left.img.w cfg.stepCol s1 s2; omega
    rcases hv with hv | hv
    · exact hv (constant_of_larger hs hp.hpos hp.wpos hp.row hur (by rw [e4]; exact axisRow_spec hp margins hs) mk1 hno)
    · exact hv (constant_of_larger hs hp.hpos hp.wpos hp.col huc (by rw [e3]; exact axisCol_spec hp margins hs) mk2 hno)
  · exact h

end

/-! ### Non-vacuity -/

/-- Window costs (SAD, SSD, ZNCC: `ker` never gives an infinity) meet the contract. -/
theorem windowCost_contract (hw : Nat) (ker : List (F K × F K) → F K) (hk : ∀ l, ker l ≠ .ninf ∧ ker l ≠ .pinf) :
    CostContract (Pandora.windowCost hw ker) := by
  refine ⟨?_, ?_, ?_⟩
  · intro left right gmin gmax r c d
    unfold Pandora.windowCost
    split_ifs
    · exact hk _
    · simp
  · intro left right gmin gmax r c d hout
    unfold Pandora.windowCost
    rw [if_neg]
    rintro ⟨-, ⟨h1, h2⟩, -⟩
    rcases hout with ho | ho
    · have : ⌊(c : K) + d⌋ < 0 := by rw [Int.floor_lt]; exact_mod_cast ho
      omega
    · have : ((right.w - 1 : Nat) : Int) < ⌈(c : K) + d⌉ := by rw [Int.lt_ceil]; exact_mod_cast ho
      omega
  · intro left right gmin gmax r c d hnd
    unfold Pandora.windowCost
    rw [if_neg]
    rintro ⟨-, ⟨h1, h2⟩, -, -, h3, -⟩
    have hfc : ⌊(c : K) + d⌋ ≤ ⌈(c : K) + d⌉ := Int.floor_le_ceil _
    have := h3 hw (by omega) ⌊(c : K) + d⌋.toNat (by omega) (by omega)
    rw [show r + hw - hw = r by omega, hnd _ (by omega)] at this
    simp at this

/-- A computable cost which meets the contract: absolute difference with the nearest lower column. -/
def exCost : Pandora.Cost ℚ := fun left right _ _ r c d =>
  if ((c : ℚ) + d < 0 ∨ ((right.w - 1 : Nat) : ℚ) < (c : ℚ) + d) ∨
    (List.range right.w).all (fun x => Pandora.noDataAt right r x) = true then .nan
  else match left.im r c, right.im r ⌊(c : ℚ) + d⌋.toNat with
    | .fin a, .fin b => .fin |a - b|
    | _, _ => .nan

theorem exCost_contract : CostContract exCost := by
  refine ⟨?_, ?_, ?_⟩
  · intro left right gmin gmax r c d
    unfold exCost
    split_ifs
    · simp
    · split <;> simp
  · intro left right gmin gmax r c d hout
    unfold exCost
    rw [if_pos (Or.inl hout)]
  · intro left right gmin gmax r c d hnd
    unfold exCost
    rw [if_pos (Or.inr _)]
    rw [List.all_eq_true]
    exact fun x hx => hnd x (List.mem_range.1 hx)

/-- A 5 x 3 pair: the right image is the left one moved by one row. -/
def exLeftImg : Img ℚ := ⟨5, 3, 0, 0, fun r c => .fin (10 * r + c), none, .fin (-1), 0, 1⟩
def exRightImg : Img ℚ := ⟨5, 3, 0, 0, fun r c => .fin (10 * r + c - 10), none, .fin (-1), 0, 1⟩
/-- Row disparities: initial disparity 1 on the three first rows, 0 on the two last ones, range 1. -/
def exDRow : Disp := ⟨.grid ⟨5, 3, fun r _ => if r < 3 then 1 else 0⟩, 1⟩
def exDCol : Disp := ⟨.const 0, 1⟩
def exMMRow : MinMax := ⟨⟨5, 3, fun r _ => (if r < 3 then 1 else 0) * 1 - 1⟩, ⟨5, 3, fun r _ => (if r < 3 then 1 else 0) * 1 + 1⟩, (-1, 2)⟩
def exMMCol : MinMax := ⟨⟨5, 3, fun _ _ => 0 * 1 - 1⟩, ⟨5, 3, fun _ _ => 0 * 1 + 1⟩, (0 * 1 - 1, 0 * 1 + 1)⟩
def exLeft : Left ℚ := ⟨exLeftImg, exMMCol, exMMRow⟩

theorem exPair : PairOk exLeft exRightImg := by
  refine ⟨by decide, by decide, rfl, rfl, ⟨⟨rfl, rfl, rfl, rfl⟩, ?_, ?_, ?_, ?_⟩, ⟨⟨rfl, rfl, rfl, rfl⟩, ?_, ?_, ?_, ?_⟩⟩
  · intro r _ c _; simp [exLeft, exMMCol]
  · intro r _ c _; simp [exLeft, exMMCol]
  · exact ⟨0, by decide, 0, by decide, rfl⟩
  · exact ⟨0, by decide, 0, by decide, rfl⟩
  · intro r _ c _; simp only [exLeft, exMMRow]; omega
  · intro r _ c _; simp only [exLeft, exMMRow]; split <;> omega
  · exact ⟨4, by decide, 0, by decide, rfl⟩
  · exact ⟨0, by decide, 0, by decide, rfl⟩

/-- The volumes of this pair exist with a step of one (hypotheses of C13, C16, C17 and C09). -/
example : ∃ cv, computeCostVolumes zoomLinear exCost ⟨2, 1, 1, .min⟩ none exLeft exRightImg (some ⟨1, 0, 2, 1⟩) = .ok cv :=
  volumes_exist_step_one exPair (by decide) rfl rfl

/-- A 5 x 3 image cropped from a 9 x 9 one by a ROI with margins limited by the border of the image. -/
def exRoiCrop : Roi := ⟨1, 1, 2, 3, ⟨3, 1, 1, 2⟩⟩
def exCropImg : Img ℚ := { exLeftImg with row0 := 1, col0 := 0 }

example : CropOk exCropImg exRoiCrop 9 9 := by
  refine ⟨by decide, by decide, by decide, rfl, rfl, rfl, rfl⟩

/-- The hypotheses of `C09_configured_range` on this pair. -/
example : getMinMax 0 0 5 3 exDCol false = .ok exMMCol ∧ Covers exDRow 0 0 5 3 ∧ Covers exDCol 0 0 5 3 ∧
    (getMinMax 0 0 5 3 exDRow false).toOption.map (fun M => (M.src, gridVals M.lo, gridVals M.hi)) =
      some (exMMRow.src, gridVals exMMRow.lo, gridVals exMMRow.hi) := by
  refine ⟨rfl, by simp [Covers, exDRow], trivial, by decide⟩

/-- The maps computed with a step of 1 and a subpixel factor of 1: on the last row, where the disparity 1 found elsewhere is
outside the image, -1 or 0 only are allowed. -/
example : ((computeCostVolumes zoomLinear exCost ⟨1, 1, 1, .min⟩ none exLeft exRightImg none).toOption.bind fun cv =>
    (computeDispMaps (.fin (-9999)) cv).toOption.map fun o => (List.range 5).map fun r => o.row.get r 1) =
    some [.fin 1, .fin 1, .fin 1, .fin 1, .fin 0] := by decide +kernel

/-- With a step of 2 the same pair raises. -/
example : (computeCostVolumes zoomLinear exCost ⟨1, 2, 1, .min⟩ none exLeft exRightImg none).toOption.isNone = true := by
  decide +kernel

/-- Hand made ranges (a dataset not written by `add_disparity_grid`): `[0, 1]` everywhere except `[0, 0]` on row 2. -/
def exHand : Left ℚ := ⟨exLeftImg, exMMCol, ⟨⟨5, 3, fun _ _ => 0⟩, ⟨5, 3, fun r _ => if r = 2 then 0 else 1⟩, (0, 1)⟩⟩

/-- The uniform width is needed in `C09_own_range`: on ranges of different widths with a step of 2 in rows, the volumes are
computed, and the pixel of row 2 (second row of the volume) gets the row disparity 1 although its own range is `[0, 0]`: the
mask of image row 1 is applied to it. -/
theorem C09_false_for_other_widths :
    exHand.rowDisp.lo.get 2 0 = 0 ∧ exHand.rowDisp.hi.get 2 0 = 0 ∧
    ((computeCostVolumes zoomLinear exCost ⟨1, 2, 1, .min⟩ none exHand exRightImg none).toOption.bind fun cv =>
      (computeDispMaps (.fin (-9999)) cv).toOption.map fun o => (cv.row.get 1, o.row.get 1 0)) = some (2, .fin 1) := by
  refine ⟨rfl, rfl, by decide +kernel⟩

end Verif.Props
