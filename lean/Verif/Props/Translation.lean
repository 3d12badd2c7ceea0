import Verif.Spec.Translation
import Verif.Props.OwnRange

/-!
# Property C57: a translation is recovered
-/

set_option linter.unusedSectionVars false

namespace Verif.Props

open Verif Verif.ImgTools Verif.MatchingCost Verif.Spec Verif.Disparity

variable {K : Type} [Field K] [LinearOrder K] [IsStrictOrderedRing K] [FloorRing K]
variable {z : Zoom K} {cfg : Cfg} {roi : Option Roi} {left : Left K} {right : Img K} {margins : Option Margins} {cv : CostVolumes K}

/-- The image used for an integer row disparity. -/
theorem slab_int (z : Zoom K) (right : Img K) (s : Nat) (dr : Int) :
    slabImg z right s ((dr : Int) : K) = shiftDispRow right dr := by
  unfold slabImg
  have : iRight ((dr : Int) : K) s = 0 := by simp [iRight]
  rw [this, Int.floor_intCast]
  rfl

/-- The window of the right displacement is the left window. -/
theorem window_equal {hw : Nat} {ker : List (F K × F K) → F K} {left right : Img K} {dr dc : Int}
    (ht : Translated left right dr dc) {a b : Nat} (hb : BothInside hw left right dr dc a b)
    (hc : CleanWindow hw left right.noData a b) {gmin gmax : Arr2 Int} (hg : gmin.get a b ≤ dc ∧ dc ≤ gmax.get a b) :
    Pandora.windowCost hw ker left (shiftDispRow right dr) gmin gmax a b ((dc : Int) : K) =
        ker (Pandora.windowPairs hw left (shiftDispRow right dr) a b (((b : Nat) : K) + ((dc : Int) : K))) ∧
      ∀ p ∈ Pandora.windowPairs hw left (shiftDispRow right dr) a b (((b : Nat) : K) + ((dc : Int) : K)), ∃ k, p = (.fin k, .fin k) := by
  obtain ⟨⟨b1, b2, b3, b4⟩, b5, b6, b7, b8⟩ := hb
  have hsum : ((a : Nat) : K) = ((a : Int) : K) := by push_cast; rfl
  have hxc : ((b : Nat) : K) + ((dc : Int) : K) = (((b : Int) + dc : Int) : K) := by push_cast; rfl
  have hval : ∀ x y : Nat, a ≤ x + hw → x ≤ a + hw → (b : Int) + dc ≤ y + hw → (y : Int) ≤ b + dc + hw →
      (shiftDispRow right dr).im x y = left.im x ((y : Int) - dc).toNat := by
    intro x y h1 h2 h3 h4
    unfold shiftDispRow
    simp only
    rw [if_pos ⟨by omega, by omega⟩]
    exact ht x ((y : Int) - dc).toNat ((x : Int) + dr).toNat y (by omega) (by omega) (by omega) (by omega) (by omega) (by omega)
  constructor
  swap
  · intro p hp
    unfold Pandora.windowPairs at hp
    rw [List.mem_flatMap] at hp
    obtain ⟨u, hu, hp⟩ := hp
    rw [List.mem_map] at hp
    obtain ⟨v, hv, rfl⟩ := hp
    rw [List.mem_range] at hu hv
    have hx : ((b : Nat) : K) + ((dc : Int) : K) + (v : K) - (hw : K) = (((b : Int) + dc + v - hw : Int) : K) := by push_cast; ring
    rw [hx]
    unfold Pandora.sampleCol
    rw [Int.fract_intCast, if_pos rfl, Int.floor_intCast]
    obtain ⟨⟨k, hk'⟩, -⟩ := hc.1 (a + u - hw) (b + v - hw) (by omega) (by omega) (by omega) (by omega)
    refine ⟨k, ?_⟩
    rw [hval (a + u - hw) ((b : Int) + dc + v - hw).toNat (by omega) (by omega) (by omega) (by omega),
      show ((((b : Int) + dc + v - hw).toNat : Int) - dc).toNat = b + v - hw by omega, hk']
  · unfold Pandora.windowCost
    rw [if_pos]
    refine ⟨⟨b1, b2, b3, b4⟩, ?_, ?_, ?_, ?_, hc.2, ?_, ?_⟩
    · rw [hxc, Int.floor_intCast, Int.ceil_intCast]
      exact ⟨b7, b8⟩
    · exact ⟨Int.cast_le.2 hg.1, Int.cast_le.2 hg.2⟩
    · intro u hu v hv
      exact (hc.1 (a + u - hw) (b + v - hw) (by omega) (by omega) (by omega) (by omega)).2.2
    · intro u hu x h1 h2
      rw [hxc, Int.floor_intCast] at h1
      rw [hxc, Int.ceil_intCast] at h2
      have hv := hval (a + u - hw) x (by omega) (by omega) (by omega) (by omega)
      obtain ⟨-, hne, -⟩ := hc.1 (a + u - hw) ((x : Int) - dc).toNat (by omega) (by omega) (by omega) (by omega)
      have hf : F.eq ((shiftDispRow right dr).im (a + u - hw) x) right.noData = false := by
        rw [hv, Bool.eq_false_iff, ne_eq, F.eq_iff]
        exact fun h => hne h.1
      unfold Pandora.noDataAt
      simpa [shiftDispRow] using hf
    · unfold Pandora.invalidAt shiftDispRow
      simp only [decide_eq_false_iff_not, not_and, not_not]
      intro h
      split_ifs at h ⊢ <;> simp_all
    · unfold Pandora.invalidAt shiftDispRow
      simp only [decide_eq_false_iff_not, not_and, not_not]
      intro h
      split_ifs at h ⊢ <;> simp_all

/-- The window cost of the right displacement is zero. -/
theorem window_zero {hw : Nat} {ker : List (F K × F K) → F K} (hk : Dissimilarity ker) {left right : Img K} {dr dc : Int}
    (ht : Translated left right dr dc) {a b : Nat} (hb : BothInside hw left right dr dc a b)
    (hc : CleanWindow hw left right.noData a b) {gmin gmax : Arr2 Int} (hg : gmin.get a b ≤ dc ∧ dc ≤ gmax.get a b) :
    Pandora.windowCost hw ker left (shiftDispRow right dr) gmin gmax a b ((dc : Int) : K) = .fin 0 := by
  obtain ⟨e, h⟩ := window_equal (ker := ker) ht hb hc hg
  rw [e]
  exact hk.zero _ h

/-- Position of an integer disparity in an axis, inside the user's range. -/
theorem int_index {a : Arr1 K} {x y : Int} {s : Nat} (hs : 0 < s) (hl : FullLattice a x y s) {d : Int} (h1 : x ≤ d) (h2 : d ≤ y) :
    ∃ i < a.n, a.get i = ((d : Int) : K) := by
  have hs' : (s : K) ≠ 0 := by positivity
  have e : (((d * s : Int)) : K) / (s : K) = ((d : Int) : K) := by push_cast; field_simp
  obtain ⟨i, hi, he, -⟩ := hl.complete (d * s) (by rw [e]; exact Int.cast_le.2 h1) (by rw [e]; exact Int.cast_le.2 h2)
  exact ⟨i, hi, by rw [he, e]⟩

/-- A column disparity of the axis between the global bounds is examined. -/
theorem src_userCol {pc : Pandora.Cost K} (hp : PairOk left right) (hs : 0 < cfg.subpix) (h1 : 1 ≤ cfg.stepRow)
    (h : computeCostVolumes z pc cfg roi left right margins = .ok cv) {i : Nat} (hi : i < cv.dispCol.n)
    (hr : (left.colDisp.src.1 : K) ≤ cv.dispCol.get i ∧ cv.dispCol.get i ≤ (left.colDisp.src.2 : K)) : UserCol cv i := by
  obtain ⟨-, -, e3, -, e5, e6, -, -⟩ := compute_char hp hs h1 h
  have hax := axisCol_spec hp margins hs
  rw [← e3] at hax
  have key := (C04_col_range_exact { cv with margins := some (mgD margins) } (mgD margins) left.colDisp.src.1
    left.colDisp.src.2 rfl (by show 0 < cv.subpixel; omega) (src_le hp.col) (by show IsAxis cv.dispCol _ _ _ _ cv.subpixel; rw [e6]; exact hax) i hi).2 hr
  unfold UserCol at key ⊢
  rw [e5]
  cases margins with
  | none => simpa [mgD] using hi
  | some m => exact key

/-- A row disparity of the axis between the global bounds is examined. -/
theorem src_userRow {pc : Pandora.Cost K} (hp : PairOk left right) (hs : 0 < cfg.subpix) (h1 : 1 ≤ cfg.stepRow)
    (h : computeCostVolumes z pc cfg roi left right margins = .ok cv) {i : Nat} (hi : i < cv.dispRow.n)
    (hr : (left.rowDisp.src.1 : K) ≤ cv.dispRow.get i ∧ cv.dispRow.get i ≤ (left.rowDisp.src.2 : K)) : UserRow cv i := by
  obtain ⟨-, -, -, e3, e5, e6, -, -⟩ := compute_char hp hs h1 h
  have hax := axisRow_spec hp margins hs
  rw [← e3] at hax
  have key := (C04_row_range_exact { cv with margins := some (mgD margins) } (mgD margins) left.rowDisp.src.1
    left.rowDisp.src.2 rfl (by show 0 < cv.subpixel; omega) (src_le hp.row) (by show IsAxis cv.dispRow _ _ _ _ cv.subpixel; rw [e6]; exact hax) i hi).2 hr
  unfold UserRow at key ⊢
  rw [e5]
  cases margins with
  | none => simpa [mgD] using hi
  | some m => exact key

/-- The proof of C57 for a cost `t` of the right displacement that no other cost beats. -/
theorem translation_value {hw : Nat} {ker : List (F K × F K) → F K} {t : K} (hp : PairOk left right)
    (hs : 0 < cfg.subpix) (h1 : 1 ≤ cfg.stepRow)
    (hker : ∀ l, (cfg.measure = .max → ker l ≠ .ninf) ∧ (cfg.measure = .min → ker l ≠ .pinf) ∧
      (ker l ≠ .nan → AtLeastAsGood cfg.measure (.fin t) (ker l)))
    (hcst : (ConstantRange left.rowDisp left.img.h left.img.w ∧ ConstantRange left.colDisp left.img.h left.img.w) ∨
      (cfg.stepRow = 1 ∧ cfg.stepCol = 1))
    {dr dc : Int}
    (h : computeCostVolumes z (Pandora.windowCost hw ker) cfg roi left right margins = .ok cv)
    {invalid : F K} {out : DispOut K} (ho : computeDispMaps invalid cv = .ok out) {r c a b : Nat} (hpx : Pixel cv r c)
    (ha : cv.row.get r = left.img.row0 + a) (hb : cv.col.get c = left.img.col0 + b)
    (hin : BothInside hw left.img right dr dc a b)
    (hwin : ∀ {gmin gmax : Arr2 Int}, gmin.get a b ≤ dc ∧ dc ≤ gmax.get a b →
      Pandora.windowCost hw ker left.img (shiftDispRow right dr) gmin gmax a b ((dc : Int) : K) = .fin t)
    (hrr : left.rowDisp.lo.get a b ≤ dr ∧ dr ≤ left.rowDisp.hi.get a b)
    (hcr : left.colDisp.lo.get a b ≤ dc ∧ dc ≤ left.colDisp.hi.get a b) :
    out.score.get r c = .fin t ∧
    ((∀ i j, UserCol cv i → UserRow cv j → cv.data r c i j = .fin t → cv.dispCol.get i = dc ∧ cv.dispRow.get j = dr) →
      out.row.get r c = .fin ((dr : Int) : K) ∧ out.col.get r c = .fin ((dc : Int) : K)) := by
  obtain ⟨e1, e2, -, -, -, -, e7, hd⟩ := compute_char hp hs h1 h
  obtain ⟨lr, lc⟩ := C13_axes_full_lattice hp hs h1 h
  have hah : a < left.img.h := by have := hin.1; omega
  have hbw : b < left.img.w := by have := hin.1; omega
  have ir := hp.row.inside a hah b hbw
  have ic := hp.col.inside a hah b hbw
  obtain ⟨i, hi, ei⟩ := int_index hs lc (d := dc) (by omega) (by omega)
  obtain ⟨j, hj, ej⟩ := int_index hs lr (d := dr) (by omega) (by omega)
  have ui : UserCol cv i := src_userCol hp hs h1 h hi (by rw [ei]; exact ⟨Int.cast_le.2 (by omega), Int.cast_le.2 (by omega)⟩)
  have uj : UserRow cv j := src_userRow hp hs h1 h hj (by rw [ej]; exact ⟨Int.cast_le.2 (by omega), Int.cast_le.2 (by omega)⟩)
  -- the cell
  have hnm : ∀ (M : MinMax) (d : Int), RangesOk M left.img.h left.img.w →
      (ConstantRange M left.img.h left.img.w ∨ (cfg.stepRow = 1 ∧ cfg.stepCol = 1)) →
      M.lo.get a b ≤ d ∧ d ≤ M.hi.get a b → ¬ MaskedBy M r c ((d : Int) : K) := by
    intro M d hM hcase hown hmk
    have hb' := hmk.1
    rw [hM.shape.1, hM.shape.2.1] at hb'
    rw [maskedBy_iff hM hb'.1 hb'.2] at hmk
    rcases hcase with hcase | ⟨s1, s2⟩
    · obtain ⟨q1, q2⟩ := hcase r hb'.1 c hb'.2
      rw [q1, q2] at hmk
      exact hmk.1 hmk.2
    · have hra : r = a := by
        have := (coords_step_one (rowMargin roi) left.img.row0 left.img.h).2 r
        rw [e1, rowCoords_eq, s1] at ha
        rw [this] at ha
        omega
      have hcb : c = b := by
        have := (coords_step_one (colMargin roi) left.img.col0 left.img.w).2 c
        rw [e2, colCoords_eq, s2] at hb
        rw [this] at hb
        omega
      subst hra hcb
      apply hmk.1
      exact ⟨Int.cast_le.2 hown.1, Int.cast_le.2 hown.2⟩
  have hcell : cv.data r c i j = .fin t := by
    rw [hd r hpx.1 c hpx.2 i hi j hj, if_neg, ei, ej, slab_int, ha, hb,
      show (left.img.row0 + (a : Int) - left.img.row0).toNat = a by omega,
      show (left.img.col0 + (b : Int) - left.img.col0).toNat = b by omega]
    · apply hwin
      unfold widened
      simp only
      omega
    · rintro (hmk | hmk)
      · rw [ej] at hmk
        exact hnm _ _ hp.row (hcst.imp And.left id) hrr hmk
      · rw [ei] at hmk
        exact hnm _ _ hp.col (hcst.imp And.right id) hcr hmk
  -- no cost is better
  have hall : ∀ i < cv.dispCol.n, ∀ j < cv.dispRow.n, (cfg.measure = .max → cv.data r c i j ≠ .ninf) ∧
      (cfg.measure = .min → cv.data r c i j ≠ .pinf) ∧
      (cv.data r c i j ≠ .nan → AtLeastAsGood cfg.measure (.fin t) (cv.data r c i j)) := by
    intro i hi j hj
    rw [hd r hpx.1 c hpx.2 i hi j hj]
    split_ifs
    · simp
    · unfold Pandora.windowCost
      split_ifs
      · exact hker _
      · simp
  have hcand : Cand cv r c (.fin t) := ⟨by simp, i, j, ui, uj, hcell⟩
  have hbest : IsBest cv.measure (Cand cv r c) (cv.data r c i j) := by
    rw [hcell]
    refine ⟨hcand, ?_⟩
    rintro x ⟨hx, i', j', ui', uj', rfl⟩
    rw [e7]
    exact (hall i' (userCol_src hp hs h1 h ui').1 j' (userRow_src hp hs h1 h uj').1).2.2 hx
  have hnw : NoWorst cv r c := by
    intro i' j' ui' uj'
    have := hall i' (userCol_src hp hs h1 h ui').1 j' (userRow_src hp hs h1 h uj').1
    rw [e7]
    cases hm : cfg.measure with
    | max => exact this.1 hm
    | min => exact this.2.1 hm
  constructor
  · have hn : ¬ NoCand cv r c := fun hn => by
      have := hn i j ui uj
      rw [hcell] at this
      simp at this
    have hb2 := C02_score_is_best invalid cv out ho r c hpx hn
    have A := hb2.2 _ hcand
    obtain ⟨hne, i', j', ui', uj', hse⟩ := hb2.1
    have B := (hall i' (userCol_src hp hs h1 h ui').1 j' (userRow_src hp hs h1 h uj').1).2.2 (by rw [hse]; exact hne)
    rw [hse] at B
    rw [e7] at A
    have hn1 := (isNaN_false_iff _).2 hne
    have hn2 : (F.fin t : F K).isNaN = false := rfl
    cases hm : cfg.measure with
    | max =>
      rw [hm] at A B
      have A' : F.le (.fin t) (out.score.get r c) = true := A
      have B' : F.le (out.score.get r c) (.fin t) = true := B
      rw [F.le_iff_not_lt hn2 hn1] at A'
      rw [F.le_iff_not_lt hn1 hn2] at B'
      exact F.lt_total hn1 hn2 (by simpa using A') (by simpa using B')
    | min =>
      rw [hm] at A B
      have A' : F.le (out.score.get r c) (.fin t) = true := A
      have B' : F.le (.fin t) (out.score.get r c) = true := B
      rw [F.le_iff_not_lt hn1 hn2] at A'
      rw [F.le_iff_not_lt hn2 hn1] at B'
      exact F.lt_total hn1 hn2 (by simpa using B') (by simpa using A')
  · intro huniq
    have := C05_unique_best_partial ho r c hpx hnw i j ui uj hbest (by
      intro i' j' ui' uj' he
      rw [hcell] at he
      obtain ⟨q1, q2⟩ := huniq i' j' ui' uj' he
      have hi' := (userCol_src hp hs h1 h ui').1
      have hj' := (userRow_src hp hs h1 h uj').1
      have inj : ∀ {a : Arr1 K} {x y : Int} {s : Nat}, FullLattice a x y s → ∀ u v, u < a.n → v < a.n → a.get u = a.get v → u = v := by
        intro a x y s hl u v hu hv he
        rcases Nat.lt_trichotomy u v with hh | hh | hh
        · exact absurd he (ne_of_lt (hl.increasing u v hh hv))
        · exact hh
        · exact absurd he.symm (ne_of_lt (hl.increasing v u hh hu))
      exact ⟨inj lc i' i hi' hi (by rw [q1, ei]), inj lr j' j hj' hj (by rw [q2, ej])⟩)
    rw [this.1, this.2.1, ei, ej]
    exact ⟨rfl, rfl⟩

/-- C57: when the right image is the left image displaced by `(dr, dc)`, the two disparities being in the ranges of the pixel, a pixel whose
windows are inside the two images and free of no-data has the score 0, and the pair `(dr, dc)` whenever no other candidate has a null
cost. Every step with constant ranges, or variable ranges with a step of one; every subpixel factor, margins and region of interest. -/
theorem C57_translation {hw : Nat} {ker : List (F K × F K) → F K} (hk : Dissimilarity ker) (hp : PairOk left right)
    (hs : 0 < cfg.subpix) (h1 : 1 ≤ cfg.stepRow) (hm : cfg.measure = .min)
    (hcst : (ConstantRange left.rowDisp left.img.h left.img.w ∧ ConstantRange left.colDisp left.img.h left.img.w) ∨
      (cfg.stepRow = 1 ∧ cfg.stepCol = 1))
    {dr dc : Int} (ht : Translated left.img right dr dc)
    (h : computeCostVolumes z (Pandora.windowCost hw ker) cfg roi left right margins = .ok cv)
    {invalid : F K} {out : DispOut K} (ho : computeDispMaps invalid cv = .ok out) {r c a b : Nat} (hpx : Pixel cv r c)
    (ha : cv.row.get r = left.img.row0 + a) (hb : cv.col.get c = left.img.col0 + b)
    (hin : BothInside hw left.img right dr dc a b) (hcl : CleanWindow hw left.img right.noData a b)
    (hrr : left.rowDisp.lo.get a b ≤ dr ∧ dr ≤ left.rowDisp.hi.get a b)
    (hcr : left.colDisp.lo.get a b ≤ dc ∧ dc ≤ left.colDisp.hi.get a b) :
    out.score.get r c = .fin 0 ∧
    ((∀ i j, UserCol cv i → UserRow cv j → cv.data r c i j = .fin 0 → cv.dispCol.get i = dc ∧ cv.dispRow.get j = dr) →
      out.row.get r c = .fin ((dr : Int) : K) ∧ out.col.get r c = .fin ((dc : Int) : K)) :=
  translation_value hp hs h1 (fun l => ⟨fun e => absurd (hm.symm.trans e) (by simp), fun _ => hk.noInf l, fun hx => by
      rw [hm]
      show F.le (.fin 0) _ = true
      rw [F.le_iff_not_lt (by rfl) ((isNaN_false_iff _).2 hx), hk.nonneg l]
      rfl⟩) hcst h ho hpx ha hb hin (fun hg => window_zero hk ht hin hcl hg) hrr hcr

/-- Sums of non-negative terms which vanish on equal values are dissimilarities. -/
theorem sumOf_dissimilarity {f : K → K → K} (h0 : ∀ x y, 0 ≤ f x y) (h1 : ∀ x, f x x = 0) : Dissimilarity (sumOf f) := by
  have key : ∀ l, sumOf f l = .nan ∨ ∃ k, 0 ≤ k ∧ sumOf f l = .fin k := by
    intro l
    induction l with
    | nil => exact Or.inr ⟨0, le_refl _, rfl⟩
    | cons p l ih =>
      obtain ⟨x, y⟩ := p
      cases x <;> cases y <;> try exact Or.inl rfl
      rename_i x y
      rcases ih with ih | ⟨k, hk, ih⟩
      · left
        show F.add _ _ = _
        rw [ih]
        rfl
      · right
        refine ⟨f x y + k, add_nonneg (h0 _ _) hk, ?_⟩
        show F.add _ _ = _
        rw [ih]
        rfl
  refine ⟨?_, ?_, ?_⟩
  · intro l
    rcases key l with h | ⟨k, hk, h⟩
    · rw [h]; rfl
    · rw [h]
      simpa [F.lt] using hk
  · intro l hl
    induction l with
    | nil => rfl
    | cons p l ih =>
      obtain ⟨k, rfl⟩ := hl p (List.mem_cons_self ..)
      show F.add _ _ = _
      rw [ih fun q hq => hl q (List.mem_cons_of_mem _ hq), h1]
      simp [F.add]
  · intro l
    rcases key l with h | ⟨k, hk, h⟩ <;> rw [h] <;> simp

theorem sad_dissimilarity : Dissimilarity (sad : List (F K × F K) → F K) :=
  sumOf_dissimilarity (fun _ _ => abs_nonneg _) (fun _ => by simp)

theorem ssd_dissimilarity : Dissimilarity (ssd : List (F K × F K) → F K) :=
  sumOf_dissimilarity (fun _ _ => mul_self_nonneg _) (fun _ => by simp)

/-- A null sum of absolute differences: the two windows are equal. -/
theorem sad_zero {l : List (F K × F K)} (h : sad l = .fin 0) : ∀ p ∈ l, ∃ k, p = (.fin k, .fin k) := by
  induction l with
  | nil => simp
  | cons p l ih =>
    obtain ⟨x, y⟩ := p
    have hxy : ∃ k k', x = .fin k ∧ y = .fin k' := by
      cases x <;> cases y <;> first | exact ⟨_, _, rfl, rfl⟩ | exact absurd h (by simp [sad, sumOf])
    obtain ⟨x, y, rfl, rfl⟩ := hxy
    have h' : F.add (.fin |x - y|) (sad l) = .fin 0 := h
    cases hl : sad l with
    | fin k =>
      rw [hl] at h'
      simp only [F.add, F.fin.injEq] at h'
      have hk : 0 ≤ k := by
        have := (sad_dissimilarity (K := K)).nonneg l
        rw [hl] at this
        simpa [F.lt] using this
      have h0 := abs_nonneg (x - y)
      have hk0 : k = 0 := by linarith
      have hx : x - y = 0 := abs_eq_zero.1 (by linarith)
      intro q hq
      rcases List.mem_cons.1 hq with rfl | hq
      · exact ⟨x, by rw [show y = x by linarith]⟩
      · exact ih (by rw [hl, hk0]) q hq
    | nan => rw [hl] at h'; exact absurd h' (by simp [F.add])
    | pinf => rw [hl] at h'; exact absurd h' (by simp [F.add])
    | ninf => rw [hl] at h'; exact absurd h' (by simp [F.add])

/-- The pair of `exLeftImg` and `exRightImg` is a translation of one row; window 3 x 3, pixel (2, 1): the hypotheses hold, the pair
returned is (1, 0). -/
theorem C57_example : ∃ cv out, computeCostVolumes zoomLinear (Pandora.windowCost 1 sad) ⟨1, 1, 1, .min⟩ none exLeft exRightImg none = .ok cv ∧
    computeDispMaps (.fin (-9999)) cv = .ok out ∧ out.score.get 2 1 = .fin 0 ∧ out.row.get 2 1 = .fin 1 ∧ out.col.get 2 1 = .fin 0 := by
  obtain ⟨cv, h⟩ := volumes_exist_step_one (z := zoomLinear) (pc := Pandora.windowCost 1 sad) (cfg := ⟨1, 1, 1, .min⟩) (roi := none)
    (margins := none) exPair (by decide) rfl rfl
  obtain ⟨e1, e2, e3, e4, e5, -, -, hd⟩ := compute_char exPair (by decide) (by decide) h
  have nc : cv.dispCol.n = 3 := by rw [e3]; decide +kernel
  have nr : cv.dispRow.n = 4 := by rw [e4]; decide +kernel
  have gc : ∀ i < 3, cv.dispCol.get i = ((i : ℤ) - 1 : ℤ) := by rw [e3]; decide +kernel
  have gr : ∀ j < 4, cv.dispRow.get j = ((j : ℤ) - 1 : ℤ) := by rw [e4]; decide +kernel
  have uc : UserCol cv 0 := by rw [UserCol, e5]; show 0 < cv.dispCol.n; omega
  have ur : UserRow cv 0 := by rw [UserRow, e5]; show 0 < cv.dispRow.n; omega
  obtain ⟨out, ho, -⟩ := maps_exist (.fin (-9999)) cv ⟨0, uc⟩ ⟨0, ur⟩
  have r2 : cv.row.get 2 = 2 := by rw [e1]; decide +kernel
  have c1 : cv.col.get 1 = 1 := by rw [e2]; decide +kernel
  have hpx : Pixel cv 2 1 := by
    constructor
    · rw [e1]; decide +kernel
    · rw [e2]; decide +kernel
  have ht : Translated exLeft.img exRightImg 1 0 := by
    intro a b a' b' _ _ _ _ ha hb
    have hb' : b' = b := by omega
    have ha' : a' = a + 1 := by omega
    subst hb' ha'
    simp only [exLeft, exLeftImg, exRightImg, F.fin.injEq]
    push_cast
    ring
  have hcl : CleanWindow 1 exLeft.img exRightImg.noData 2 1 := by
    refine ⟨fun x y _ _ _ _ => ⟨⟨_, rfl⟩, ?_, rfl⟩, rfl⟩
    simp only [exLeft, exLeftImg, exRightImg, ne_eq, F.fin.injEq]
    have h1 : (0 : ℚ) ≤ 10 * (x : ℚ) + (y : ℚ) := by positivity
    intro h2
    linarith
  obtain ⟨hs, hpair⟩ := C57_translation sad_dissimilarity exPair (by decide) (by decide) rfl (Or.inr ⟨rfl, rfl⟩) ht h ho hpx
    (a := 2) (b := 1) (by rw [r2]; rfl) (by rw [c1]; rfl) (by unfold BothInside; decide) hcl (by decide) (by decide)
  refine ⟨cv, out, h, ho, hs, ?_⟩
  have := hpair (by
    intro i j ui uj hz
    have hi : i < 3 := by rw [UserCol, e5] at ui; have : i < cv.dispCol.n := ui; omega
    have hj : j < 4 := by rw [UserRow, e5] at uj; have : j < cv.dispRow.n := uj; omega
    rw [hd 2 hpx.1 1 hpx.2 i (by omega) j (by omega), gc i hi, gr j hj] at hz
    split_ifs at hz
    rw [r2, c1, slab_int] at hz
    change Pandora.windowCost 1 sad exLeft.img _ _ _ 2 1 _ = _ at hz
    unfold Pandora.windowCost at hz
    split_ifs at hz with hok
    have hcol := hok.2.1
    have e : ((1 : ℕ) : ℚ) + (((i : ℤ) - 1 : ℤ) : ℚ) = (((i : ℤ)) : ℚ) := by push_cast; ring
    rw [e, Int.floor_intCast, Int.ceil_intCast] at hcol
    have hi1 : i = 1 := by
      have h2 := hcol.2
      have : (shiftDispRow exRightImg ((j : ℤ) - 1)).w = 3 := rfl
      rw [this] at h2
      omega
    subst hi1
    obtain ⟨k, hk⟩ := sad_zero hz (exLeft.img.im 2 1, Pandora.sampleCol (shiftDispRow exRightImg ((j : ℤ) - 1)) 2 1) (by
      unfold Pandora.windowPairs
      rw [List.mem_flatMap]
      refine ⟨1, by decide, ?_⟩
      rw [List.mem_map]
      exact ⟨1, by decide, by norm_num⟩)
    rw [gc 1 (by omega), gr j hj]
    refine ⟨by norm_num, ?_⟩
    have hj2 : j = 2 := by
      have key : ∀ j : ℕ, j < 4 → j ≠ 2 → Pandora.sampleCol (shiftDispRow exRightImg ((j : ℤ) - 1)) 2 1 ≠ exLeft.img.im 2 1 := by decide +kernel
      simp only [Prod.mk.injEq] at hk
      by_contra hne
      exact key j hj hne (hk.2.trans hk.1.symm)
    rw [hj2]
    norm_num)
  simpa using this

end Verif.Props
