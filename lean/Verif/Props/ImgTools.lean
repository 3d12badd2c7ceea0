import Verif.Lemmas.ImgTools
import Verif.Spec.ImgTools

/-!
# Properties C10, C11, C14, C15, C18, C19: disparity ranges, row shift, regions of interest
-/

set_option linter.unusedSectionVars false

namespace Verif.Props

open Verif Verif.ImgTools Verif.Spec

/-! ## C10, C11 — disparity ranges of the left and right images -/

/-- Non-vacuity support for C10/C11: the ranges are computed for every constant disparity, and for every grid which covers
an image rectangle of at least 2 x 2 pixels. -/
theorem ranges_exist (row0 col0 : Int) (h w : Nat) (d : Disp) (right : Bool) (hc : Covers d row0 col0 h w) :
    ∃ M, getMinMax row0 col0 h w d right = .ok M := by
  unfold getMinMax
  unfold Covers at hc
  cases hi : d.init with
  | const i => exact ⟨_, rfl⟩
  | grid g =>
    rw [hi] at hc
    obtain ⟨h1, h2, h3, h4, h5, h6⟩ := hc
    simp only
    rw [sliceLen_of_nonneg h1 (by omega) h2, sliceLen_of_nonneg h3 (by omega) h4]
    rw [if_neg (by omega), if_neg (by omega), if_neg (by omega)]
    exact ⟨_, rfl⟩

/-- Error branch: a grid cropped to one row or one column is refused (`np.squeeze` drops the axis). -/
theorem single_row_or_col_grid_raises (row0 col0 : Int) (h w : Nat) (d : Disp) (g : Arr2 Int) (right : Bool)
    (hi : d.init = .grid g) (h1 : h = 1 ∨ w = 1) (hr : 0 ≤ row0 ∧ row0 + h ≤ g.h) (hc : 0 ≤ col0 ∧ col0 + w ≤ g.w) :
    getMinMax row0 col0 h w d right = .error .valueError := by
  unfold getMinMax
  rw [hi]
  simp only
  rw [sliceLen_of_nonneg hr.1 (by omega) hr.2, sliceLen_of_nonneg hc.1 (by omega) hc.2]
  by_cases h0 : (row0 + (h : Int) - row0).toNat = 0 ∨ (col0 + (w : Int) - col0).toNat = 0
  · rw [if_pos h0]
  · rw [if_neg h0, if_pos (by omega)]

/-- Characterisation used by C10 and C11. -/
theorem getMinMax_spec {row0 col0 : Int} {h w : Nat} {d : Disp} {right : Bool} {M : MinMax}
    (hM : getMinMax row0 col0 h w d right = .ok M) :
    (M.lo.h = h ∧ M.lo.w = w ∧ M.hi.h = h ∧ M.hi.w = w) ∧
    (match d.init with
     | .const i => ∀ r c, M.lo.get r c = i * sgn right - d.range ∧ M.hi.get r c = i * sgn right + d.range
     | .grid g => 2 ≤ h ∧ 2 ≤ w ∧ ∀ r c,
        M.lo.get r c = g.get (sliceStart g.h row0 + r) (sliceStart g.w col0 + c) * sgn right - d.range ∧
        M.hi.get r c = g.get (sliceStart g.h row0 + r) (sliceStart g.w col0 + c) * sgn right + d.range) ∧
    (match d.init with
     | .const i => M.src = (i * sgn right - d.range, i * sgn right + d.range)
     | .grid _ => M.src = (minOf (gridVals M.lo), maxOf (gridVals M.hi))) := by
  unfold getMinMax at hM
  cases hi : d.init with
  | const i =>
    rw [hi] at hM
    simp only [Except.ok.injEq] at hM
    subst hM
    exact ⟨⟨rfl, rfl, rfl, rfl⟩, fun _ _ => ⟨rfl, rfl⟩, rfl⟩
  | grid g =>
    rw [hi] at hM
    simp only at hM
    split at hM
    · simp at hM
    · split at hM
      · simp at hM
      · split at hM
        · simp at hM
        · simp only [Except.ok.injEq] at hM
          subst hM
          refine ⟨⟨?_, ?_, ?_, ?_⟩, ⟨by omega, by omega, fun _ _ => ⟨rfl, rfl⟩⟩, rfl⟩ <;> simp only <;> omega

/-- C10: whenever the left image receives its ranges, so does the right image, with at every pixel the opposite interval
`[-max, -min]`; both intervals have width `2 * range`, and the left one is centred on the initial disparity. -/
theorem C10_right_range_opposite (row0 col0 : Int) (h w : Nat) (d : Disp) (L : MinMax)
    (hL : getMinMax row0 col0 h w d false = .ok L) :
    ∃ R, getMinMax row0 col0 h w d true = .ok R ∧
      (L.lo.h = h ∧ L.lo.w = w ∧ L.hi.h = h ∧ L.hi.w = w) ∧ (R.lo.h = h ∧ R.lo.w = w ∧ R.hi.h = h ∧ R.hi.w = w) ∧
      (∀ r < h, ∀ c < w,
        R.lo.get r c = - L.hi.get r c ∧ R.hi.get r c = - L.lo.get r c ∧
        L.hi.get r c - L.lo.get r c = 2 * d.range ∧ R.hi.get r c - R.lo.get r c = 2 * d.range) := by
  have hS := getMinMax_spec hL
  have hR : ∃ R, getMinMax row0 col0 h w d true = .ok R := by
    unfold getMinMax at hL ⊢
    cases hi : d.init with
    | const i => exact ⟨_, rfl⟩
    | grid g =>
      rw [hi] at hL
      simp only at hL ⊢
      split at hL
      · simp at hL
      · rename_i h1
        rw [if_neg h1]
        split at hL
        · simp at hL
        · rename_i h2
          rw [if_neg h2]
          split at hL
          · simp at hL
          · rename_i h3
            rw [if_neg h3]
            exact ⟨_, rfl⟩
  obtain ⟨R, hR⟩ := hR
  have hT := getMinMax_spec hR
  refine ⟨R, hR, hS.1, hT.1, fun r _ c _ => ?_⟩
  have h1 := hS.2.1
  have h2 := hT.2.1
  cases hi : d.init with
  | const i =>
    rw [hi] at h1 h2
    have e1 := h1 r c
    have e2 := h2 r c
    simp only [sgn, Bool.false_eq_true, if_false, if_true] at e1 e2
    omega
  | grid g =>
    rw [hi] at h1 h2
    have e1 := h1.2.2 r c
    have e2 := h2.2.2 r c
    simp only [sgn, Bool.false_eq_true, if_false, if_true] at e1 e2
    omega

/-- C10 (centre): the left range of the pixel at image position `(row0 + r, col0 + c)` is
`[init - range, init + range]` with the initial disparity configured for this very pixel, also when the dataset is a crop. -/
theorem C10_left_range_centred (row0 col0 : Int) (h w : Nat) (d : Disp) (hc : Covers d row0 col0 h w) :
    ∃ L, getMinMax row0 col0 h w d false = .ok L ∧ ∀ r < h, ∀ c < w,
      L.lo.get r c = initAt d (row0 + r) (col0 + c) - d.range ∧
      L.hi.get r c = initAt d (row0 + r) (col0 + c) + d.range := by
  obtain ⟨L, hL⟩ := ranges_exist row0 col0 h w d false hc
  refine ⟨L, hL, fun r hr c hcw => ?_⟩
  have h1 := (getMinMax_spec hL).2.1
  unfold initAt
  unfold Covers at hc
  cases hi : d.init with
  | const i =>
    rw [hi] at h1
    have := h1 r c
    simp only [sgn, Bool.false_eq_true, if_false] at this ⊢
    omega
  | grid g =>
    rw [hi] at h1 hc
    have e := h1.2.2 r c
    obtain ⟨a1, a2, a3, a4, -, -⟩ := hc
    rw [sliceStart_of_nonneg a1 (by omega), sliceStart_of_nonneg a3 (by omega)] at e
    simp only [sgn, Bool.false_eq_true, if_false] at e ⊢
    have e1 : (row0 + (r : Int)).toNat = row0.toNat + r := by omega
    have e2 : (col0 + (c : Int)).toNat = col0.toNat + c := by omega
    rw [e1, e2]
    omega

/-- C11: the recorded global interval contains the range of every pixel and its two ends are attained. -/
theorem C11_source_is_tight_hull (row0 col0 : Int) (h w : Nat) (d : Disp) (right : Bool) (M : MinMax)
    (hh : 0 < h) (hw : 0 < w) (hM : getMinMax row0 col0 h w d right = .ok M) :
    (∀ r < h, ∀ c < w, M.src.1 ≤ M.lo.get r c ∧ M.hi.get r c ≤ M.src.2) ∧
    (∃ r < h, ∃ c < w, M.lo.get r c = M.src.1) ∧ (∃ r < h, ∃ c < w, M.hi.get r c = M.src.2) := by
  obtain ⟨⟨s1, s2, s3, s4⟩, h1, h2⟩ := getMinMax_spec hM
  cases hi : d.init with
  | const i =>
    rw [hi] at h1 h2
    simp only at h2
    rw [h2]
    refine ⟨fun r _ c _ => ?_, ⟨0, hh, 0, hw, (h1 0 0).1⟩, ⟨0, hh, 0, hw, (h1 0 0).2⟩⟩
    have := h1 r c
    simp only
    omega
  | grid g =>
    rw [hi] at h1 h2
    simp only at h2
    rw [h2]
    have n1 : gridVals M.lo ≠ [] := gridVals_ne_nil (by omega) (by omega)
    have n2 : gridVals M.hi ≠ [] := gridVals_ne_nil (by omega) (by omega)
    refine ⟨fun r hr c hc => ⟨?_, ?_⟩, ?_, ?_⟩
    · exact minOf_le (mem_gridVals.2 ⟨r, by omega, c, by omega, rfl⟩)
    · exact le_maxOf (mem_gridVals.2 ⟨r, by omega, c, by omega, rfl⟩)
    · obtain ⟨r, hr, c, hc, e⟩ := mem_gridVals.1 (minOf_mem n1)
      exact ⟨r, by omega, c, by omega, e⟩
    · obtain ⟨r, hr, c, hc, e⟩ := mem_gridVals.1 (maxOf_mem n2)
      exact ⟨r, by omega, c, by omega, e⟩

/-- A 3 x 3 grid cropped to the 2 x 2 rectangle of rows 1..2 and columns 0..1. -/
def exGrid : Disp := ⟨.grid ⟨3, 3, fun r c => 10 * r + c⟩, 2⟩

example : Covers exGrid 1 0 2 2 := by simp [Covers, exGrid]

example : ((getMinMax 1 0 2 2 exGrid false).toOption.map fun M =>
    (M.src, M.lo.get 0 0, M.lo.get 1 1, M.hi.get 1 1)) = some ((8, 23), 8, 19, 23) := by decide

example : ((getMinMax 1 0 2 2 exGrid true).toOption.map fun M =>
    (M.src, M.lo.get 0 0, M.lo.get 1 1, M.hi.get 1 1)) = some ((-23, -8), -12, -23, -19) := by decide

/-! ## C14, C15 — shift of the right image along the rows -/

section
variable {K : Type} [Field K] [LinearOrder K]

/-- C14: row `r` of the shifted image is row `r + d` of the input when this row exists and no-data otherwise, the mask
flags exactly the pixels equal to no-data, and the shape, the coordinates and the no-data value do not change. -/
theorem C14_row_shift (img : Img K) (d : Int) :
    let out := shiftDispRow img d
    (out.h = img.h ∧ out.w = img.w ∧ out.row0 = img.row0 ∧ out.col0 = img.col0 ∧ out.noData = img.noData) ∧
    (∀ r < img.h, ∀ c < img.w,
      (∀ r' : Nat, (r' : Int) = r + d → r' < img.h → out.im r c = img.im r' c) ∧
      ((∀ r' : Nat, (r' : Int) = r + d → img.h ≤ r') → out.im r c = img.noData)) ∧
    ∃ m, out.msk = some m ∧ ∀ r < img.h, ∀ c < img.w,
      (m r c = out.noDataMask ↔ F.eq (out.im r c) img.noData = true) ∧
      (m r c = out.validPixels ↔ F.eq (out.im r c) img.noData = false) := by
  refine ⟨⟨rfl, rfl, rfl, rfl, rfl⟩, ?_, ?_⟩
  · intro r _ c _
    refine ⟨fun r' hr' hlt => ?_, fun hno => ?_⟩
    · have e : ((r : Int) + d).toNat = r' := by omega
      have : 0 ≤ (r : Int) + d ∧ (r : Int) + d < img.h := by omega
      simp only [shiftDispRow, if_pos this, e]
    · have : ¬ (0 ≤ (r : Int) + d ∧ (r : Int) + d < img.h) := by
        rintro ⟨h0, h1⟩
        have := hno ((r : Int) + d).toNat (by omega)
        omega
      simp only [shiftDispRow, if_neg this]
  · refine ⟨_, rfl, fun r _ c _ => ?_⟩
    simp only [shiftDispRow]
    constructor
    · split <;> simp_all
    · split <;> simp_all

/-- Full statement of C15: a right pixel declared invalid by its mask stays declared invalid after the shift. -/
def C15Statement (K : Type) [Field K] [LinearOrder K] : Prop :=
  ∀ (img : Img K) (m : Nat → Nat → Int) (d : Int), img.msk = some m →
    ∀ r < img.h, ∀ c < img.w, ∀ r' < img.h, (r' : Int) = r + d → m r' c ≠ img.validPixels →
      ∃ m', (shiftDispRow img d).msk = some m' ∧ m' r c ≠ (shiftDispRow img d).validPixels

/-- A 1 x 1 right image of value 5, declared invalid by its mask (value 2, different from valid and no-data). -/
def exMasked (K : Type) [Field K] : Img K where
  h := 1
  w := 1
  row0 := 0
  col0 := 0
  im := fun _ _ => .fin 1
  msk := some fun _ _ => 2
  noData := .fin 0
  validPixels := 0
  noDataMask := 1

/-- C15 is false of the code: the shifted image gets a new mask built from the no-data values only. -/
theorem C15_false_mask_lost : ¬ C15Statement K := by
  intro h
  obtain ⟨m', hm, hne⟩ := h (exMasked K) (fun _ _ => 2) 0 rfl 0 Nat.one_pos 0 Nat.one_pos 0 Nat.one_pos (by simp)
    (by simp [exMasked])
  simp only [shiftDispRow, Option.some.injEq] at hm hne
  apply hne
  rw [← hm]
  simp [exMasked, F.eq]

/-- C15 (part that holds): a pixel whose value is the no-data value, or which does not exist, is declared invalid after
the shift. Missing: pixels invalidated by the user's mask while carrying a value (see `C15_false_mask_lost`). The no-data
value is not NaN (Pandora replaces NaN by -9999). -/
theorem C15_nodata_stays_invalid_partial (img : Img K) (d : Int) (hn : img.noData ≠ .nan) (r c : Nat)
    (hr : r < img.h) (hc : c < img.w)
    (h : ∀ r' : Nat, (r' : Int) = r + d → r' < img.h → img.im r' c = img.noData) :
    ∃ m', (shiftDispRow img d).msk = some m' ∧ m' r c ≠ (shiftDispRow img d).validPixels := by
  obtain ⟨-, h1, m, hm, h2⟩ := C14_row_shift img d
  refine ⟨m, hm, ?_⟩
  have e : (shiftDispRow img d).im r c = img.noData := by
    by_cases hex : ∃ r' : Nat, (r' : Int) = r + d ∧ r' < img.h
    · obtain ⟨r', e, hlt⟩ := hex
      rw [(h1 r hr c hc).1 r' e hlt, h r' e hlt]
    · exact (h1 r hr c hc).2 (fun r' e => by
        by_contra hlt
        exact hex ⟨r', e, by omega⟩)
  rw [Ne, (h2 r hr c hc).2, e]
  cases hv : img.noData <;> simp_all [F.eq]

/-- Concrete case of C14 and of the partial C15: 3 x 1 image 7, 8, 0 with no-data 0, shifted by 1 and by -5. -/
def exCol : Img ℚ where
  h := 3
  w := 1
  row0 := 0
  col0 := 0
  im := fun r _ => if r = 0 then .fin 7 else if r = 1 then .fin 8 else .fin 0
  msk := none
  noData := .fin 0
  validPixels := 0
  noDataMask := 1

example : (List.range 3).map (fun r => (shiftDispRow exCol 1).im r 0) = [.fin 8, .fin 0, .fin 0] := by decide
example : (List.range 3).map (fun r => (shiftDispRow exCol (-5)).im r 0) = [.fin 0, .fin 0, .fin 0] := by decide

end

/-! ## C18 — margins of the region of interest -/

theorem dispBounds_spec (d : Disp) {δ : Int} (h : InDispRange d δ) : (dispBounds d).1 ≤ δ ∧ δ ≤ (dispBounds d).2 := by
  unfold InDispRange at h
  unfold dispBounds
  cases hi : d.init with
  | const i => rw [hi] at h; exact h
  | grid g =>
    rw [hi] at h
    obtain ⟨r, hr, c, hc, h1, h2⟩ := h
    have hm : g.get r c ∈ gridVals g := mem_gridVals.2 ⟨r, hr, c, hc, rfl⟩
    have a := minOf_le (List.mem_map_of_mem (f := (· - d.range)) hm)
    have b := le_maxOf (List.mem_map_of_mem (f := (· + d.range)) hm)
    simp only at a b ⊢
    omega

/-- C18: `get_roi_processing` keeps the bounds of the ROI, never decreases a margin, writes the new margins in the caller's
ROI, and every pixel of the ROI displaced by any disparity of the ranges is inside the ROI extended by the margins. -/
theorem C18_margins_cover_disparities (roi : Roi) (col row : Disp) (out after : Roi)
    (h : getRoiProcessing roi col row = .ok (out, after)) :
    (out.colFirst = roi.colFirst ∧ out.colLast = roi.colLast ∧ out.rowFirst = roi.rowFirst ∧
      out.rowLast = roi.rowLast ∧ after = out) ∧
    (roi.margins.left ≤ out.margins.left ∧ roi.margins.up ≤ out.margins.up ∧
      roi.margins.right ≤ out.margins.right ∧ roi.margins.down ≤ out.margins.down) ∧
    (∀ x δ, roi.colFirst ≤ x → x ≤ roi.colLast → InDispRange col δ →
      out.colFirst - out.margins.left ≤ x + δ ∧ x + δ ≤ out.colLast + out.margins.right) ∧
    (∀ x δ, roi.rowFirst ≤ x → x ≤ roi.rowLast → InDispRange row δ →
      out.rowFirst - out.margins.up ≤ x + δ ∧ x + δ ≤ out.rowLast + out.margins.down) := by
  unfold getRoiProcessing at h
  have key : out = { roi with margins := ⟨max |(dispBounds col).1| roi.margins.left, max |(dispBounds row).1| roi.margins.up,
      max |(dispBounds col).2| roi.margins.right, max |(dispBounds row).2| roi.margins.down⟩ } ∧ after = out := by
    cases h1 : col.init <;> cases h2 : row.init <;> rw [h1, h2] at h <;>
      simp only [Except.ok.injEq, Prod.mk.injEq, reduceCtorEq] at h
    · exact ⟨h.1.symm, by rw [← h.1, ← h.2]⟩
    · exact ⟨h.1.symm, by rw [← h.1, ← h.2]⟩
  obtain ⟨rfl, rfl⟩ := key
  refine ⟨⟨rfl, rfl, rfl, rfl, rfl⟩, ⟨le_max_right _ _, le_max_right _ _, le_max_right _ _, le_max_right _ _⟩, ?_, ?_⟩
  · intro x δ h1 h2 hd
    have hb := dispBounds_spec col hd
    have a := le_trans (neg_abs_le (dispBounds col).1) hb.1
    have b := le_trans hb.2 (le_abs_self (dispBounds col).2)
    have c1 := le_max_left |(dispBounds col).1| roi.margins.left
    have c2 := le_max_left |(dispBounds col).2| roi.margins.right
    simp only
    omega
  · intro x δ h1 h2 hd
    have hb := dispBounds_spec row hd
    have a := le_trans (neg_abs_le (dispBounds row).1) hb.1
    have b := le_trans hb.2 (le_abs_self (dispBounds row).2)
    have c1 := le_max_left |(dispBounds row).1| roi.margins.up
    have c2 := le_max_left |(dispBounds row).2| roi.margins.down
    simp only
    omega

/-- C18 (idempotence): applying it again to the returned ROI, or to the caller's updated ROI, changes nothing. -/
theorem C18_idempotent (roi : Roi) (col row : Disp) (out after : Roi)
    (h : getRoiProcessing roi col row = .ok (out, after)) :
    getRoiProcessing out col row = .ok (out, out) ∧ getRoiProcessing after col row = .ok (out, out) := by
  unfold getRoiProcessing at h ⊢
  cases h1 : col.init <;> cases h2 : row.init <;> rw [h1, h2] at h <;>
    simp only [Except.ok.injEq, Prod.mk.injEq, reduceCtorEq] at h <;> obtain ⟨rfl, rfl⟩ := h <;> simp

/-- Error branch of C18: mixing a constant and a grid raises `TypeError`. -/
theorem C18_mixed_raises (roi : Roi) (col row : Disp) (i : Int) (g : Arr2 Int)
    (h : (col.init = .const i ∧ row.init = .grid g) ∨ (col.init = .grid g ∧ row.init = .const i)) :
    getRoiProcessing roi col row = .error .typeError := by
  unfold getRoiProcessing
  rcases h with ⟨h1, h2⟩ | ⟨h1, h2⟩ <;> rw [h1, h2]

/-- The margins do not cover the matching window around the displaced pixel: they are the maximum, not the sum, of the
window margins and of the disparities. Here the margins before the call are those of a 5 x 5 window (2), the disparity
range is [-3, 3], and the window around a displaced pixel leaves the extended ROI. -/
theorem C18_window_not_covered :
    ∃ (roi : Roi) (col row : Disp) (out after : Roi), getRoiProcessing roi col row = .ok (out, after) ∧
      roi.margins = ⟨2, 2, 2, 2⟩ ∧ ∃ x δ, roi.colFirst ≤ x ∧ x ≤ roi.colLast ∧ InDispRange col δ ∧
        x + δ - 2 < out.colFirst - out.margins.left :=
  ⟨⟨10, 20, 10, 20, ⟨2, 2, 2, 2⟩⟩, ⟨.const 0, 3⟩, ⟨.const 0, 3⟩, _, _, rfl, rfl, 10, -3, by decide, by decide,
    ⟨by decide, by decide⟩, by decide⟩

example : getRoiProcessing ⟨10, 20, 10, 20, ⟨2, 2, 2, 2⟩⟩ ⟨.const 1, 3⟩ exGrid = .error .typeError := rfl
example : getRoiProcessing ⟨10, 20, 10, 20, ⟨3, 3, 3, 3⟩⟩ ⟨.const 1, 3⟩ ⟨.const (-2), 5⟩ =
    .ok (⟨10, 20, 10, 20, ⟨3, 7, 4, 3⟩⟩, ⟨10, 20, 10, 20, ⟨3, 7, 4, 3⟩⟩) := by decide

/-! ## C19 — only and all the points of the region of interest are returned -/

theorem roiBounds_spec (x : Arr1 Int) (a first last : Int) (step : Nat) (hs : 1 ≤ step) (hn : 0 < x.n)
    (hp : IsProg x a step) (hd : a < first → (step : Int) ∣ first - a) :
    ∃ lo hi, roiBounds x first last step = .ok (lo, hi) ∧
      ∀ k < x.n, (first ≤ x.get k ∧ x.get k ≤ last) ↔ clampIdx x.n lo ≤ k ∧ k < clampIdx x.n hi := by
  unfold roiBounds
  rw [if_neg (by omega)]
  refine ⟨_, _, rfl, fun k hk => ?_⟩
  have e0 : x.get 0 = a := by rw [hp 0 hn]; simp
  have e1 : x.get (x.n - 1) = a + ((x.n - 1 : Nat) : Int) * step := hp _ (by omega)
  have ek := hp k hk
  have hs' : (0 : Int) < step := by omega
  constructor
  · rintro ⟨h1, h2⟩
    constructor
    · rw [e0]
      by_cases c1 : a < first
      · rw [if_pos c1]
        obtain ⟨q, hq⟩ := hd c1
        have hdiv : (first - a) / (step : Int) = q := by rw [hq]; exact Int.mul_ediv_cancel_left _ (by omega)
        have hq0 : 0 ≤ q := by
          rw [← hdiv]; exact Int.ediv_nonneg (by omega) (by omega)
        unfold clampIdx
        rw [hdiv, if_neg (by omega)]
        have hqk : q ≤ k := by
          by_contra hlt
          have : (step : Int) * (k + 1) ≤ step * q := Int.mul_le_mul_of_nonneg_left (by omega) (by omega)
          rw [ek, show first = a + step * q by omega] at h1
          have e : (k : Int) * step = step * k := Int.mul_comm _ _
          have e' : (step : Int) * (k + 1) = step * k + step := by ring
          omega
        omega
      · rw [if_neg c1]
        simp [clampIdx]
    · unfold clampIdx
      by_cases c1 : x.get (x.n - 1) > last
      · rw [if_pos c1, if_pos (Int.ediv_neg_of_neg_of_pos (by omega) hs')]
        have hlt : -(((x.n - 1 - k : Nat)) : Int) * step ≤ last - x.get (x.n - 1) := by
          rw [e1]
          have e : ((x.n - 1 - k : Nat) : Int) = ((x.n - 1 : Nat) : Int) - k := by omega
          rw [e]
          have := ek ▸ h2
          nlinarith
        have := (Int.le_ediv_iff_mul_le hs').2 hlt
        omega
      · rw [if_neg c1, if_neg (by omega)]
        omega
  · rintro ⟨h1, h2⟩
    constructor
    · rw [e0] at h1
      by_cases c1 : a < first
      · rw [if_pos c1] at h1
        obtain ⟨q, hq⟩ := hd c1
        have hdiv : (first - a) / (step : Int) = q := by rw [hq]; exact Int.mul_ediv_cancel_left _ (by omega)
        have hq0 : 0 ≤ q := by
          rw [← hdiv]; exact Int.ediv_nonneg (by omega) (by omega)
        unfold clampIdx at h1
        rw [hdiv, if_neg (by omega)] at h1
        have hqk : q ≤ k := by omega
        have : (step : Int) * q ≤ step * k := Int.mul_le_mul_of_nonneg_left hqk (by omega)
        rw [ek]
        have e : (k : Int) * step = step * k := Int.mul_comm _ _
        omega
      · rw [ek]
        have : 0 ≤ (k : Int) * step := by positivity
        omega
    · by_cases c1 : x.get (x.n - 1) > last
      · rw [if_pos c1] at h2
        unfold clampIdx at h2
        rw [if_pos (Int.ediv_neg_of_neg_of_pos (by omega) hs')] at h2
        have hle : -(((x.n - 1 - k : Nat)) : Int) ≤ (last - x.get (x.n - 1)) / (step : Int) := by omega
        have := (Int.le_ediv_iff_mul_le hs').1 hle
        rw [e1] at this
        have e : ((x.n - 1 - k : Nat) : Int) = ((x.n - 1 : Nat) : Int) - k := by omega
        rw [e] at this
        rw [ek]
        nlinarith
      · have hkl : (k : Int) * step ≤ ((x.n - 1 : Nat) : Int) * step :=
          Int.mul_le_mul_of_nonneg_right (by omega) (by omega)
        rw [ek]
        omega

/-- C19: the returned rows (columns) are, in order, exactly the computed rows (columns) inside the ROI, and every map
value is the one computed at its coordinates. `ds.row` and `ds.col` are progressions of the step which contain the first
row and column of the ROI or start after them (C17). -/
theorem C19_roi_exactly {β : Type} (ds : MapsDs β) (roi : Roi) (stepRow stepCol : Nat) (ar ac : Int)
    (h1 : 1 ≤ stepRow) (h2 : 1 ≤ stepCol) (n1 : 0 < ds.row.n) (n2 : 0 < ds.col.n)
    (p1 : IsProg ds.row ar stepRow) (p2 : IsProg ds.col ac stepCol)
    (d1 : ar < roi.rowFirst → (stepRow : Int) ∣ roi.rowFirst - ar)
    (d2 : ac < roi.colFirst → (stepCol : Int) ∣ roi.colFirst - ac) :
    ∃ out, removeRoiMargins ds roi stepRow stepCol = .ok out ∧
      out.row.toList = ds.row.toList.filter (fun y => roi.rowFirst ≤ y ∧ y ≤ roi.rowLast) ∧
      out.col.toList = ds.col.toList.filter (fun x => roi.colFirst ≤ x ∧ x ≤ roi.colLast) ∧
      ∀ r < out.row.n, ∀ c < out.col.n, ∃ r' < ds.row.n, ∃ c' < ds.col.n,
        out.row.get r = ds.row.get r' ∧ out.col.get c = ds.col.get c' ∧ out.rowMap r c = ds.rowMap r' c' ∧
        out.colMap r c = ds.colMap r' c' ∧ out.score r c = ds.score r' c' := by
  obtain ⟨l, r, hlr, sc⟩ := roiBounds_spec ds.col ac roi.colFirst roi.colLast stepCol h2 n2 p2 d2
  obtain ⟨u, d, hud, sr⟩ := roiBounds_spec ds.row ar roi.rowFirst roi.rowLast stepRow h1 n1 p1 d1
  unfold removeRoiMargins
  rw [hlr, hud]
  refine ⟨_, rfl, ?_, ?_, ?_⟩
  · apply slice_toList_filter
    intro k hk
    rw [decide_eq_true_eq]
    exact sr k hk
  · apply slice_toList_filter
    intro k hk
    rw [decide_eq_true_eq]
    exact sc k hk
  · intro i hi j hj
    have b1 : clampIdx ds.row.n d ≤ ds.row.n := by unfold clampIdx; split <;> omega
    have b2 : clampIdx ds.col.n r ≤ ds.col.n := by unfold clampIdx; split <;> omega
    simp only [Arr1.slice, sliceLen] at hi hj
    refine ⟨sliceStart ds.row.n u + i, ?_, sliceStart ds.col.n l + j, ?_, rfl, rfl, rfl, rfl, rfl⟩ <;>
      unfold sliceStart <;> omega

/-- Concrete case (the comment of the code): col = 8, 10, …, 16, step 2, ROI columns 10..14; row = 0, 4, 8, 12, step 4,
ROI rows 0..10. -/
def exDs : MapsDs Nat where
  row := ⟨4, fun k => (k : Int) * 4⟩
  col := ⟨5, fun k => 8 + (k : Int) * 2⟩
  rowMap := fun r c => 10 * r + c
  colMap := fun r c => 10 * r + c
  score := fun r c => 10 * r + c

def exRoi : Roi := ⟨10, 14, 0, 10, ⟨3, 3, 3, 3⟩⟩

example : IsProg exDs.row 0 4 ∧ IsProg exDs.col 8 2 ∧ (2 : Int) ∣ exRoi.colFirst - 8 := by
  refine ⟨fun k _ => by simp [exDs], fun k _ => rfl, by decide⟩

example : ((removeRoiMargins exDs exRoi 4 2).toOption.map fun o => (o.row.toList, o.col.toList, o.rowMap 2 1)) =
    some ([0, 4, 8], [10, 12, 14], 22) := by decide

end Verif.Props
