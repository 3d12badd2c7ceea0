import Verif.Spec.Crop
import Verif.Props.Agreement

/-!
# Property C20: the run on a region of interest and the run on the full images
-/

set_option linter.unusedSectionVars false

namespace Verif.Props

open Verif Verif.ImgTools Verif.MatchingCost Verif.Spec Verif.Disparity

variable {K : Type} [Field K] [LinearOrder K] [IsStrictOrderedRing K] [FloorRing K]

theorem iRight_int (k : Int) (s : Nat) : iRight ((k : Int) : K) s = 0 := by simp [iRight]

theorem ceil_of_iRight {d : K} {s : Nat} (h : iRight d s ≠ 0) : ⌈d⌉ = ⌊d⌋ + 1 := by
  apply le_antisymm (Int.ceil_le_floor_add_one d)
  by_contra hlt
  apply h
  have : d = ((⌊d⌋ : Int) : K) := le_antisymm ((Int.le_ceil d).trans (Int.cast_le.2 (by omega))) (Int.floor_le d)
  rw [this]
  exact iRight_int _ _

theorem int_of_iRight {d : K} {s : Nat} (hs : 0 < s) (hd : ∃ k : Int, d * s = k) (h : iRight d s = 0) : d = ((⌊d⌋ : Int) : K) := by
  obtain ⟨k, hk⟩ := hd
  have hsK : (0 : K) < s := by exact_mod_cast hs
  have h1 : Int.fract d * s = ((k - ⌊d⌋ * s : Int) : K) := by
    rw [Int.fract]; push_cast; rw [sub_mul, hk]
  unfold iRight at h
  rw [h1, Int.floor_intCast] at h
  have h2 : (0 : K) ≤ Int.fract d * s := mul_nonneg (Int.fract_nonneg d) hsK.le
  rw [h1] at h2
  have h3 : (0 : Int) ≤ k - ⌊d⌋ * s := by exact_mod_cast h2
  have h4 : k - ⌊d⌋ * (s : Int) = 0 := by omega
  rw [h4, Int.cast_zero] at h1
  have h5 : Int.fract d = 0 := by
    rcases mul_eq_zero.1 h1 with h | h
    · exact h
    · exact absurd h hsK.ne'
  have := Int.floor_add_fract d
  rw [h5, add_zero] at this
  exact this.symm

theorem iRight_lt {d : K} {s : Nat} (hs : 0 < s) : iRight d s < s := by
  unfold iRight
  have hsK : (0 : K) < s := by exact_mod_cast hs
  have : ⌊Int.fract d * (s : K)⌋ < (s : Int) := by
    rw [Int.floor_lt]
    have := mul_lt_mul_of_pos_right (Int.fract_lt_one d) hsK
    rw [one_mul] at this
    exact_mod_cast this
  omega

theorem zoomed_noData (z : Zoom K) (img : Img K) (s i : Nat) : (zoomed z img s i).noData = img.noData ∧ (zoomed z img s i).h = img.h ∧
    (zoomed z img s i).w = img.w := by
  unfold zoomed
  split_ifs <;> exact ⟨rfl, rfl, rfl⟩

/-- Outside the image the displaced image holds no-data. -/
theorem slab_missing (z : Zoom K) (img : Img K) {s : Nat} {d : K} {x : Nat}
    (h : ¬ RowExists img.h d x) (hs : 0 < s) (hd : ∃ k : Int, d * s = k) (y : Nat) : (slabImg z img s d).im x y = img.noData := by
  unfold slabImg shiftDispRow
  obtain ⟨e1, e2, -⟩ := zoomed_noData z img s (iRight d s)
  simp only [e1, e2]
  split_ifs with hin
  · unfold RowExists at h
    by_cases h0 : iRight d s = 0
    · have := int_of_iRight hs hd h0
      rw [this, Int.ceil_intCast, Int.floor_intCast] at h
      omega
    · rw [ceil_of_iRight h0] at h
      unfold zoomed
      rw [if_neg h0]
      simp only
      rw [if_neg (by omega)]
  · rfl

/-- Rows which exist in the crop have the values of the full image. -/
theorem slab_crop {full crop : Img K} {u v s : Nat} (hc : CropOf full crop u v) (hs : 0 < s) {d : K} {x y : Nat}
    (h : RowExists crop.h d x) (hy : y < crop.w) :
    (slabImg zoomLinear crop s d).im x y = (slabImg zoomLinear full s d).im (x + u) (y + v) ∧ RowExists full.h d (x + u) := by
  have hr := hc.rows
  have hfc := Int.floor_le_ceil d
  unfold RowExists at h ⊢
  refine ⟨?_, by push_cast; omega⟩
  unfold slabImg shiftDispRow
  obtain ⟨e1, e2, -⟩ := zoomed_noData zoomLinear crop s (iRight d s)
  obtain ⟨e3, e4, -⟩ := zoomed_noData zoomLinear full s (iRight d s)
  simp only [e1, e2, e3, e4]
  rw [if_pos ⟨h.1, by omega⟩, if_pos ⟨by push_cast; omega, by push_cast; omega⟩]
  have et : (((x + u : Nat) : Int) + ⌊d⌋).toNat = ((x : Int) + ⌊d⌋).toNat + u := by push_cast; omega
  rw [et]
  by_cases h0 : iRight d s = 0
  · unfold zoomed
    rw [if_pos h0, if_pos h0]
    exact hc.im _ (by omega) _ hy
  · have hce := ceil_of_iRight h0
    have hlt := iRight_lt (d := d) hs
    unfold zoomed
    rw [if_neg h0, if_neg h0]
    simp only
    rw [if_pos (by omega), if_pos (by omega)]
    generalize ((x : Int) + ⌊d⌋).toNat = t at *
    have ht : t + 1 < crop.h := by omega
    generalize iRight d s = ind at *
    unfold zoomLinear
    have m1 : ∀ t, (ind + t * s) % s = ind := by intro t; rw [Nat.add_mul_mod_self_right, Nat.mod_eq_of_lt hlt]
    have d1 : ∀ t, (ind + t * s) / s = t := by intro t; rw [Nat.add_mul_div_right _ _ hs, Nat.div_eq_of_lt hlt, zero_add]
    rw [m1, m1, if_neg h0, if_neg h0, d1, d1, hc.im t (by omega) y hy, hc.im (t + 1) ht y hy, show t + 1 + u = t + u + 1 by omega]

theorem noDataAt_slab (z : Zoom K) (img : Img K) (s : Nat) (d : K) (x y : Nat) :
    Pandora.noDataAt (slabImg z img s d) x y = F.eq ((slabImg z img s d).im x y) img.noData := by
  unfold slabImg
  rw [noDataAt_shift, (zoomed_noData _ _ _ _).1]

theorem slab_w (z : Zoom K) (img : Img K) (s : Nat) (d : K) : (slabImg z img s d).w = img.w := by
  unfold slabImg shiftDispRow
  exact (zoomed_noData _ _ _ _).2.2

theorem floor_crop (b v : Nat) (e : K) : ⌊((b + v : Nat) : K) + e⌋ = ⌊(b : K) + e⌋ + v ∧ ⌈((b + v : Nat) : K) + e⌉ = ⌈(b : K) + e⌉ + v := by
  have : ((b + v : Nat) : K) + e = (b : K) + e + (v : K) := by push_cast; ring
  rw [this, Int.floor_add_natCast, Int.ceil_add_natCast]
  exact ⟨rfl, rfl⟩

/-- The displaced window, and the window, are in the crop. -/
def FitsIn (hw : Nat) (l r : Img K) (a b : Nat) (d e : K) : Prop :=
  (hw ≤ a ∧ a + hw < l.h ∧ hw ≤ b ∧ b + hw < l.w) ∧
  (((hw : Int) ≤ a + ⌊d⌋ ∧ (a : Int) + ⌈d⌉ + hw < r.h) ∧ (hw : Int) ≤ ⌊(b : K) + e⌋ ∧ ⌈(b : K) + e⌉ + (hw : Int) < r.w)

section
variable {full fullR crop cropR : Img K} {u v s hw : Nat} (hl : CropOf full crop u v) (hr : CropOf fullR cropR u v)
variable (hs : 0 < s) {d e : K} (hd : ∃ k : Int, d * s = k) {gmin gmax gmin' gmax' : Arr2 Int} {a b : Nat}
variable (hg : gmin'.get a b = gmin.get (a + u) (b + v) ∧ gmax'.get a b = gmax.get (a + u) (b + v))
include hl hr hs hd hg

/-- A window kept in the crop has all its rows and columns in the crop. -/
theorem fits_of_windowOk (hn : fullR.noData ≠ .nan) (ok : Pandora.windowOk hw crop (slabImg zoomLinear cropR s d) gmin' gmax' a b e) :
    FitsIn hw crop cropR a b d e := by
  obtain ⟨b1, b2, -, -, b5, -⟩ := ok
  rw [slab_w] at b2
  have hfc := Int.floor_le_ceil ((b : K) + e)
  have rows : ∀ p < 2 * hw + 1, RowExists cropR.h d (a + p - hw) := by
    intro p hp
    by_contra hne
    have := b5 p hp ⌊(b : K) + e⌋.toNat (by omega) (by omega)
    rw [noDataAt_slab, slab_missing _ _ hne hs hd, ← Bool.not_eq_true, F.eq_iff] at this
    apply this
    rw [hr.noData]
    exact ⟨rfl, (isNaN_false_iff _).2 hn⟩
  have r0 := rows 0 (by omega)
  have r1 := rows (2 * hw) (by omega)
  unfold RowExists at r0 r1
  exact ⟨b1, ⟨by omega, by omega⟩, b2⟩

/-- Windows which are in the crop: same conditions, same values. -/
theorem window_fits (hf : FitsIn hw crop cropR a b d e) :
    (Pandora.windowOk hw crop (slabImg zoomLinear cropR s d) gmin' gmax' a b e ↔
      Pandora.windowOk hw full (slabImg zoomLinear fullR s d) gmin gmax (a + u) (b + v) e) ∧
    Pandora.windowPairs hw crop (slabImg zoomLinear cropR s d) a b ((b : K) + e) =
      Pandora.windowPairs hw full (slabImg zoomLinear fullR s d) (a + u) (b + v) (((b + v : Nat) : K) + e) := by
  obtain ⟨f1, f2, f3⟩ := hf
  obtain ⟨c1, c2⟩ := floor_crop b v e
  have hfc := Int.floor_le_ceil ((b : K) + e)
  have hfd := Int.floor_le_ceil d
  have q1 := hl.rows
  have q2 := hl.cols
  have q3 := hr.rows
  have q4 := hr.cols
  have val : ∀ p < 2 * hw + 1, ∀ y < cropR.w, (slabImg zoomLinear cropR s d).im (a + p - hw) y =
      (slabImg zoomLinear fullR s d).im (a + u + p - hw) (y + v) := by
    intro p hp y hy
    rw [(slab_crop hr hs (x := a + p - hw) (by unfold RowExists; omega) hy).1, show a + p - hw + u = a + u + p - hw by omega]
  refine ⟨⟨?_, ?_⟩, ?_⟩
  · rintro ⟨b1, b2, b3, b4, b5, b6, -, -⟩
    refine ⟨by omega, ?_, by rw [← hg.1, ← hg.2]; exact b3, ?_, ?_, ?_, invalidAt_shift _ _ _ _, invalidAt_shift _ _ _ _⟩
    · rw [slab_w, c1, c2]
      omega
    · intro p hp q hq
      rw [show a + u + p - hw = a + p - hw + u by omega, show b + v + q - hw = b + q - hw + v by omega, ← hl.noDataAt _ (by omega) _ (by omega)]
      exact b4 p hp q hq
    · intro p hp x h1 h2
      rw [c1] at h1
      rw [c2] at h2
      have := b5 p hp (x - v) (by omega) (by omega)
      rw [noDataAt_slab, val p hp _ (by omega), show x - v + v = x by omega, hr.noData] at this
      rw [noDataAt_slab]
      exact this
    · rw [← hl.invalidAt _ (by omega) _ (by omega)]
      exact b6
  · rintro ⟨b1, b2, b3, b4, b5, b6, -, -⟩
    refine ⟨f1, by rw [slab_w]; exact f3, by rw [hg.1, hg.2]; exact b3, ?_, ?_, ?_, invalidAt_shift _ _ _ _, invalidAt_shift _ _ _ _⟩
    · intro p hp q hq
      rw [hl.noDataAt _ (by omega) _ (by omega), show a + p - hw + u = a + u + p - hw by omega, show b + q - hw + v = b + v + q - hw by omega]
      exact b4 p hp q hq
    · intro p hp x h1 h2
      rw [noDataAt_slab, val p hp _ (by omega), hr.noData, ← noDataAt_slab]
      exact b5 p hp (x + v) (by rw [c1]; push_cast; omega) (by rw [c2]; push_cast; omega)
    · rw [hl.invalidAt _ (by omega) _ (by omega)]
      exact b6
  · unfold Pandora.windowPairs
    apply List.flatMap_congr
    intro p hp
    apply List.map_congr_left
    intro q hq
    rw [List.mem_range] at hp hq
    have hx : (b : K) + e + (q : K) - (hw : K) = (b : K) + e + (((q : Int) - hw : Int) : K) := by push_cast; ring
    have hx' : ((b + v : Nat) : K) + e + (q : K) - (hw : K) = (b : K) + e + (((q : Int) - hw + v : Int) : K) := by push_cast; ring
    rw [hl.im _ (by omega) _ (by omega), show a + p - hw + u = a + u + p - hw by omega, show b + q - hw + v = b + v + q - hw by omega, hx, hx']
    congr 1
    unfold Pandora.sampleCol
    rw [Int.fract_add_intCast, Int.fract_add_intCast, Int.floor_add_intCast, Int.floor_add_intCast]
    have t1 : (⌊(b : K) + e⌋ + ((q : Int) - hw + v)).toNat = (⌊(b : K) + e⌋ + ((q : Int) - hw)).toNat + v := by omega
    rw [t1]
    split_ifs with h0
    · exact val p hp _ (by omega)
    · have hc1 : ⌈(b : K) + e⌉ = ⌊(b : K) + e⌋ + 1 := by
        apply le_antisymm (Int.ceil_le_floor_add_one _)
        by_contra hlt
        apply h0
        rw [Int.fract]
        have h1 : (b : K) + e ≤ (⌊(b : K) + e⌋ : K) := (Int.le_ceil _).trans (Int.cast_le.2 (by omega))
        have h2 := Int.floor_le ((b : K) + e)
        linarith
      rw [val p hp _ (by omega), val p hp _ (by omega), show (⌊(b : K) + e⌋ + ((q : Int) - hw)).toNat + v + 1 =
        (⌊(b : K) + e⌋ + ((q : Int) - hw)).toNat + 1 + v by omega]

end

section
variable {cfg : Cfg} {roi : Option Roi} {full crop : Left K} {fullR cropR : Img K} {margins : Option Margins} {cvF cvC : CostVolumes K}
variable {u v hw : Nat} {ker : List (F K × F K) → F K}

/-- The two cells of the same point and the same disparities. -/
theorem cells_of (hp : PairOk full fullR) (hs : 0 < cfg.subpix) (h1 : 1 ≤ cfg.stepRow) (hc : SimpleRanges cfg full)
    (h : computeCostVolumes zoomLinear (Pandora.windowCost hw ker) cfg roi full fullR margins = .ok cvF)
    {r c a b i j : Nat} (hpx : Pixel cvF r c) (ha : cvF.row.get r = full.img.row0 + a) (hb : cvF.col.get c = full.img.col0 + b)
    (hah : a < full.img.h) (hbw : b < full.img.w) (ui : UserCol cvF i) (uj : UserRow cvF j) :
    (InRange full.rowDisp a b (cvF.dispRow.get j) ∧ InRange full.colDisp a b (cvF.dispCol.get i) →
      cvF.data r c i j = Pandora.windowCost hw ker full.img (slabImg zoomLinear fullR cfg.subpix (cvF.dispRow.get j))
        (widened full.colDisp.lo (-((mgD margins).left : Int))) (widened full.colDisp.hi (mgD margins).right) a b (cvF.dispCol.get i)) ∧
    (¬ (InRange full.rowDisp a b (cvF.dispRow.get j) ∧ InRange full.colDisp a b (cvF.dispCol.get i)) → cvF.data r c i j = .nan) ∧
    ∃ k : Int, cvF.dispRow.get j * cfg.subpix = k := by
  obtain ⟨e1, e2, -, e4, -, -, -, hd⟩ := compute_char hp hs h1 h
  obtain ⟨hi, ci⟩ := userCol_src hp hs h1 h ui
  obtain ⟨hj, rj⟩ := userRow_src hp hs h1 h uj
  have mask : ∀ (M : MinMax) (d : K), RangesOk M full.img.h full.img.w → (M.src.1 : K) ≤ d ∧ d ≤ (M.src.2 : K) →
      (ConstantRange M full.img.h full.img.w ∨ (cfg.stepRow = 1 ∧ cfg.stepCol = 1)) →
      (MaskedBy M r c d ↔ ¬ InRange M a b d) := by
    intro M d hM hsrc hcase
    rcases hcase with hcase | ⟨s1, s2⟩
    · have hin : InRange M a b d := by
        obtain ⟨q1, q2⟩ := hcase a hah b hbw
        unfold InRange
        rw [q1, q2]
        exact hsrc
      constructor
      · intro hmk
        have hb' := hmk.1
        rw [hM.shape.1, hM.shape.2.1] at hb'
        rw [maskedBy_iff hM hb'.1 hb'.2] at hmk
        obtain ⟨q1, q2⟩ := hcase r hb'.1 c hb'.2
        rw [q1, q2] at hmk
        exact absurd hmk.2 hmk.1
      · exact fun h => absurd hin h
    · have hra : r = a := by
        have := (coords_step_one (rowMargin roi) full.img.row0 full.img.h).2 r
        rw [e1, rowCoords_eq, s1, this] at ha
        omega
      have hcb : c = b := by
        have := (coords_step_one (colMargin roi) full.img.col0 full.img.w).2 c
        rw [e2, colCoords_eq, s2, this] at hb
        omega
      subst hra hcb
      rw [maskedBy_iff hM hah hbw]
      exact ⟨fun h => h.1, fun h => ⟨h, hsrc⟩⟩
  have mr := mask _ _ hp.row rj (hc.imp And.left id)
  have mc := mask _ _ hp.col ci (hc.imp And.right id)
  rw [hd r hpx.1 c hpx.2 i hi j hj, mr, mc, ha, hb, show (full.img.row0 + (a : Int) - full.img.row0).toNat = a by omega,
    show (full.img.col0 + (b : Int) - full.img.col0).toNat = b by omega]
  refine ⟨fun q => ?_, fun q => ?_, ?_⟩
  · rw [if_neg (by rintro (q' | q'); exact q' q.1; exact q' q.2)]
  · rw [if_pos (by by_contra hno; push Not at hno; exact q hno)]
  · have := axisRow_spec hp margins hs
    rw [← e4] at this
    exact axis_multiple hs this hj

/-- The point of a pixel of the volumes is a pixel of the image. -/
theorem position (hp : PairOk full fullR) (hs : 0 < cfg.subpix) (h1 : 1 ≤ cfg.stepRow) (h2 : 1 ≤ cfg.stepCol) {pc : Pandora.Cost K}
    (h : computeCostVolumes zoomLinear pc cfg roi full fullR margins = .ok cvF)
    {r c : Nat} (hpx : Pixel cvF r c) : ∃ a b : Nat, a < full.img.h ∧ b < full.img.w ∧ cvF.row.get r = full.img.row0 + a ∧
      cvF.col.get c = full.img.col0 + b := by
  obtain ⟨e1, e2, -⟩ := compute_char hp hs h1 h
  obtain ⟨p1, p2⟩ := hpx
  rw [e1, rowCoords_eq] at p1
  rw [e2, colCoords_eq] at p2
  have x1 := coords_in _ _ _ _ h1 p1
  have x2 := coords_in _ _ _ _ h2 p2
  rw [e1, e2, rowCoords_eq, colCoords_eq]
  obtain ⟨a, ha⟩ := Int.eq_ofNat_of_zero_le x1.1
  obtain ⟨b, hb⟩ := Int.eq_ofNat_of_zero_le x2.1
  exact ⟨a, b, by omega, by omega, by omega, by omega⟩

theorem CropOf.self (img : Img K) : CropOf img img 0 0 :=
  ⟨by omega, by omega, by simp, by simp, fun _ _ _ _ => rfl, rfl, fun _ _ _ _ => rfl, fun _ _ _ _ => rfl⟩

variable {roiC : Option Roi}

/-- C20 (first half): every cost computed by the run on the region of interest is the cost of the run on the full images, for the same
point and the same disparities. -/
theorem C20_roi_cost_is_full_cost (hcp : CropPair full fullR crop cropR u v) (hpF : PairOk full fullR) (hpC : PairOk crop cropR)
    (hs : 0 < cfg.subpix) (h1 : 1 ≤ cfg.stepRow) (h2 : 1 ≤ cfg.stepCol) (hcF : SimpleRanges cfg full) (hcC : SimpleRanges cfg crop)
    (hn : fullR.noData ≠ .nan)
    (hF : computeCostVolumes zoomLinear (Pandora.windowCost hw ker) cfg roi full fullR margins = .ok cvF)
    (hC : computeCostVolumes zoomLinear (Pandora.windowCost hw ker) cfg roiC crop cropR margins = .ok cvC)
    {r c r' c' i j i' j' : Nat} (hpxC : Pixel cvC r c) (hpxF : Pixel cvF r' c')
    (hrow : cvC.row.get r = cvF.row.get r') (hcol : cvC.col.get c = cvF.col.get c')
    (ui : UserCol cvC i) (uj : UserRow cvC j) (ui' : UserCol cvF i') (uj' : UserRow cvF j')
    (hdr : cvC.dispRow.get j = cvF.dispRow.get j') (hdc : cvC.dispCol.get i = cvF.dispCol.get i')
    (hne : cvC.data r c i j ≠ .nan) : cvF.data r' c' i' j' = cvC.data r c i j := by
  obtain ⟨a, b, hah, hbw, ha, hb⟩ : ∃ a b : Nat, a < crop.img.h ∧ b < crop.img.w ∧ cvC.row.get r = crop.img.row0 + a ∧
      cvC.col.get c = crop.img.col0 + b := position hpC hs h1 h2 hC hpxC
  have q1 := hcp.left.rows
  have q2 := hcp.left.cols
  have ha' : cvF.row.get r' = full.img.row0 + ((a + u : Nat) : Int) := by
    rw [← hrow, ha, hcp.left.row0]; push_cast; ring
  have hb' : cvF.col.get c' = full.img.col0 + ((b + v : Nat) : Int) := by
    rw [← hcol, hb, hcp.left.col0]; push_cast; ring
  obtain ⟨C1, C2, hk⟩ := cells_of hpC hs h1 hcC hC hpxC ha hb hah hbw ui uj
  obtain ⟨F1, F2, -⟩ := cells_of hpF hs h1 hcF hF hpxF ha' hb' (by omega) (by omega) ui' uj'
  have hin : InRange crop.rowDisp a b (cvC.dispRow.get j) ∧ InRange crop.colDisp a b (cvC.dispCol.get i) := by
    by_contra hno
    exact hne (C2 hno)
  have hinF : InRange full.rowDisp (a + u) (b + v) (cvF.dispRow.get j') ∧ InRange full.colDisp (a + u) (b + v) (cvF.dispCol.get i') := by
    unfold InRange at hin ⊢
    rw [← hdr, ← hdc, ← (hcp.rowRange a hah b hbw).1, ← (hcp.rowRange a hah b hbw).2, ← (hcp.colRange a hah b hbw).1,
      ← (hcp.colRange a hah b hbw).2]
    exact hin
  rw [F1 hinF, C1 hin, ← hdr, ← hdc]
  rw [C1 hin] at hne
  have hg : (widened crop.colDisp.lo (-((mgD margins).left : Int))).get a b =
      (widened full.colDisp.lo (-((mgD margins).left : Int))).get (a + u) (b + v) ∧
      (widened crop.colDisp.hi (mgD margins).right).get a b = (widened full.colDisp.hi (mgD margins).right).get (a + u) (b + v) := by
    unfold widened
    simp only
    rw [(hcp.colRange a hah b hbw).1, (hcp.colRange a hah b hbw).2]
    exact ⟨rfl, rfl⟩
  unfold Pandora.windowCost at hne ⊢
  split_ifs at hne with ok
  · obtain ⟨w1, w2⟩ := window_fits hcp.left hcp.right hs hk hg (fits_of_windowOk hcp.left hcp.right hs hk hg hn ok)
    rw [if_pos ok, if_pos (w1.1 ok), w2]
  · exact absurd rfl hne

/-- C20 (partial): with the crop made by the region of interest `R` and its margins, at every point of `R`, a candidate whose displaced
window is covered by the margins has the same cost, NaN included, in the two runs. Missing: the candidates near the ends of the ranges,
because `get_roi_processing` takes the maximum, and not the sum, of the window margin and of the disparity (`C20_false`). -/
theorem C20_same_cost_partial (hcp : CropPair full fullR crop cropR u v) (hpF : PairOk full fullR) (hpC : PairOk crop cropR)
    (hs : 0 < cfg.subpix) (h1 : 1 ≤ cfg.stepRow) (h2 : 1 ≤ cfg.stepCol) (hcF : SimpleRanges cfg full) (hcC : SimpleRanges cfg crop)
    (hn : fullR.noData ≠ .nan) {R : Roi} (h0 : full.img.row0 = 0 ∧ full.img.col0 = 0) (hR : CropOk crop.img R full.img.h full.img.w)
    (hF : computeCostVolumes zoomLinear (Pandora.windowCost hw ker) cfg roi full fullR margins = .ok cvF)
    (hC : computeCostVolumes zoomLinear (Pandora.windowCost hw ker) cfg roiC crop cropR margins = .ok cvC)
    {r c r' c' i j i' j' : Nat} (hpxC : Pixel cvC r c) (hpxF : Pixel cvF r' c')
    (hrow : cvC.row.get r = cvF.row.get r') (hcol : cvC.col.get c = cvF.col.get c')
    (inR : R.rowFirst ≤ cvC.row.get r ∧ cvC.row.get r ≤ R.rowLast) (inC : R.colFirst ≤ cvC.col.get c ∧ cvC.col.get c ≤ R.colLast)
    (ui : UserCol cvC i) (uj : UserRow cvC j) (ui' : UserCol cvF i') (uj' : UserRow cvF j')
    (hdr : cvC.dispRow.get j = cvF.dispRow.get j') (hdc : cvC.dispCol.get i = cvF.dispCol.get i')
    (hcov : MarginsCover R hw (cvC.dispRow.get j) (cvC.dispCol.get i)) : cvC.data r c i j = cvF.data r' c' i' j' := by
  by_cases hne : cvC.data r c i j = .nan
  swap
  · exact (C20_roi_cost_is_full_cost hcp hpF hpC hs h1 h2 hcF hcC hn hF hC hpxC hpxF hrow hcol ui uj ui' uj' hdr hdc hne).symm
  obtain ⟨a, b, hah, hbw, ha, hb⟩ : ∃ a b : Nat, a < crop.img.h ∧ b < crop.img.w ∧ cvC.row.get r = crop.img.row0 + a ∧
      cvC.col.get c = crop.img.col0 + b := position hpC hs h1 h2 hC hpxC
  have q1 := hcp.left.rows
  have q2 := hcp.left.cols
  have ha' : cvF.row.get r' = full.img.row0 + ((a + u : Nat) : Int) := by
    rw [← hrow, ha, hcp.left.row0]; push_cast; ring
  have hb' : cvF.col.get c' = full.img.col0 + ((b + v : Nat) : Int) := by
    rw [← hcol, hb, hcp.left.col0]; push_cast; ring
  obtain ⟨C1, C2, hk⟩ := cells_of hpC hs h1 hcC hC hpxC ha hb hah hbw ui uj
  obtain ⟨F1, F2, -⟩ := cells_of hpF hs h1 hcF hF hpxF ha' hb' (by omega) (by omega) ui' uj'
  have hiff : (InRange crop.rowDisp a b (cvC.dispRow.get j) ∧ InRange crop.colDisp a b (cvC.dispCol.get i)) ↔
      (InRange full.rowDisp (a + u) (b + v) (cvF.dispRow.get j') ∧ InRange full.colDisp (a + u) (b + v) (cvF.dispCol.get i')) := by
    unfold InRange
    rw [← hdr, ← hdc, ← (hcp.rowRange a hah b hbw).1, ← (hcp.rowRange a hah b hbw).2, ← (hcp.colRange a hah b hbw).1,
      ← (hcp.colRange a hah b hbw).2]
  by_cases hin : InRange crop.rowDisp a b (cvC.dispRow.get j) ∧ InRange crop.colDisp a b (cvC.dispCol.get i)
  · rw [F1 (hiff.1 hin), C1 hin, ← hdr, ← hdc]
    have hg : (widened crop.colDisp.lo (-((mgD margins).left : Int))).get a b =
        (widened full.colDisp.lo (-((mgD margins).left : Int))).get (a + u) (b + v) ∧
        (widened crop.colDisp.hi (mgD margins).right).get a b = (widened full.colDisp.hi (mgD margins).right).get (a + u) (b + v) := by
      unfold widened
      simp only
      rw [(hcp.colRange a hah b hbw).1, (hcp.colRange a hah b hbw).2]
      exact ⟨rfl, rfl⟩
    unfold Pandora.windowCost
    by_cases okF : Pandora.windowOk hw full.img (slabImg zoomLinear fullR cfg.subpix (cvC.dispRow.get j))
        (widened full.colDisp.lo (-((mgD margins).left : Int))) (widened full.colDisp.hi (mgD margins).right) (a + u) (b + v)
        (cvC.dispCol.get i)
    · have fitF := fits_of_windowOk (CropOf.self full.img) (CropOf.self fullR) hs hk ⟨rfl, rfl⟩ hn okF
      have fitC : FitsIn hw crop.img cropR a b (cvC.dispRow.get j) (cvC.dispCol.get i) := by
        obtain ⟨c1, c2⟩ := floor_crop b v (cvC.dispCol.get i)
        have e1 : ⌊(b : K) + cvC.dispCol.get i⌋ = b + ⌊cvC.dispCol.get i⌋ := Int.floor_natCast_add _ _
        have e2 : ⌈(b : K) + cvC.dispCol.get i⌉ = b + ⌈cvC.dispCol.get i⌉ := by rw [add_comm, Int.ceil_add_natCast, add_comm]
        unfold FitsIn at fitF ⊢
        rw [c1, c2, e1, e2] at fitF
        rw [e1, e2]
        obtain ⟨m1, m2, m3, m4⟩ := hcov
        have z1 := hR.row0
        have z2 := hR.col0
        have z3 := hR.row1
        have z4 := hR.col1
        have z5 := hcp.left.row0
        have z6 := hcp.left.col0
        have z7 := hpC.sameH
        have z8 := hpC.sameW
        have z9 := hpF.sameH
        have z10 := hpF.sameW
        push_cast at fitF
        omega
      obtain ⟨w1, w2⟩ := window_fits hcp.left hcp.right hs hk hg fitC
      rw [if_pos okF, if_pos (w1.2 okF), w2]
    · rw [if_neg okF, if_neg]
      intro okC
      exact okF ((window_fits hcp.left hcp.right hs hk hg (fits_of_windowOk hcp.left hcp.right hs hk hg hn okC)).1.1 okC)
  · rw [C2 hin, F2 (fun q => hin (hiff.2 q))]

end

/-- The full statement of C20: window margins before `get_roi_processing`, ranges made by `add_disparity_grid`. -/
def C20Statement (K : Type) [Field K] [LinearOrder K] [IsStrictOrderedRing K] [FloorRing K] : Prop :=
  ∀ (cfg : Cfg) (full crop : Left K) (fullR cropR : Img K) (cvF cvC : CostVolumes K) (u v hw : Nat) (ker : List (F K × F K) → F K)
    (roi R after : Roi) (col row : Disp),
    CropPair full fullR crop cropR u v → PairOk full fullR → PairOk crop cropR → 0 < cfg.subpix → cfg.stepRow = 1 → cfg.stepCol = 1 →
    fullR.noData ≠ .nan → full.img.row0 = 0 ∧ full.img.col0 = 0 →
    getMinMax 0 0 full.img.h full.img.w row false = .ok full.rowDisp → getMinMax 0 0 full.img.h full.img.w col false = .ok full.colDisp →
    roi.margins = ⟨hw, hw, hw, hw⟩ → getRoiProcessing roi col row = .ok (R, after) → CropOk crop.img R full.img.h full.img.w →
    computeCostVolumes zoomLinear (Pandora.windowCost hw ker) cfg none full fullR none = .ok cvF →
    computeCostVolumes zoomLinear (Pandora.windowCost hw ker) cfg (some R) crop cropR none = .ok cvC →
    ∀ r c r' c' i j i' j' : Nat, Pixel cvC r c → Pixel cvF r' c' → cvC.row.get r = cvF.row.get r' → cvC.col.get c = cvF.col.get c' →
      R.rowFirst ≤ cvC.row.get r ∧ cvC.row.get r ≤ R.rowLast → R.colFirst ≤ cvC.col.get c ∧ cvC.col.get c ≤ R.colLast →
      UserCol cvC i → UserRow cvC j → UserCol cvF i' → UserRow cvF j' →
      cvC.dispRow.get j = cvF.dispRow.get j' → cvC.dispCol.get i = cvF.dispCol.get i' → cvC.data r c i j = cvF.data r' c' i' j'

/-- A black image of 3 rows and `w` columns. -/
def flat (w : Nat) (col0 : Int) : Img ℚ := ⟨3, w, 0, col0, fun _ _ => .fin 0, none, .fin 1, 0, 1⟩

/-- Row disparity 0, column disparities from -1 to 1. -/
def flatLeft (w : Nat) (col0 : Int) : Left ℚ := ⟨flat w col0,
  ⟨⟨3, w, fun _ _ => 0 * 1 - 1⟩, ⟨3, w, fun _ _ => 0 * 1 + 1⟩, (0 * 1 - 1, 0 * 1 + 1)⟩,
  ⟨⟨3, w, fun _ _ => 0 * 1 - 0⟩, ⟨3, w, fun _ _ => 0 * 1 + 0⟩, (0 * 1 - 0, 0 * 1 + 0)⟩⟩

theorem flat_pair (w : Nat) (hw : 0 < w) (col0 : Int) : PairOk (flatLeft w col0) (flat w col0) := by
  have h3 : 0 < (flatLeft w col0).img.h := by show 0 < 3; omega
  refine ⟨h3, hw, rfl, rfl, ⟨⟨rfl, rfl, rfl, rfl⟩, ?_, ?_, ?_, ?_⟩, ⟨⟨rfl, rfl, rfl, rfl⟩, ?_, ?_, ?_, ?_⟩⟩
  · intro r _ c _; simp [flatLeft]
  · intro r _ c _; simp [flatLeft]
  · exact ⟨0, h3, 0, hw, rfl⟩
  · exact ⟨0, h3, 0, hw, rfl⟩
  · intro r _ c _; simp [flatLeft]
  · intro r _ c _; simp [flatLeft]
  · exact ⟨0, h3, 0, hw, rfl⟩
  · exact ⟨0, h3, 0, hw, rfl⟩

theorem flat_crop : CropPair (flatLeft 9 0) (flat 9 0) (flatLeft 3 3) (flat 3 3) 0 3 := by
  have h : CropOf (flat 9 0) (flat 3 3) 0 3 :=
    ⟨by decide, by decide, rfl, rfl, fun _ _ _ _ => rfl, rfl, fun _ _ _ _ => rfl, fun _ _ _ _ => rfl⟩
  exact ⟨h, h, fun _ _ _ _ => ⟨rfl, rfl⟩, fun _ _ _ _ => ⟨rfl, rfl⟩⟩

/-- C20 is false: on a region of interest of one pixel, with a 3 x 3 window and the column range [-1, 1], the run on the region cannot
compute the cost of the column disparity 1, which the run on the full images computes. -/
theorem C20_false : ¬ C20Statement ℚ := by
  intro hst
  have hpF := flat_pair 9 (by decide) 0
  have hpC := flat_pair 3 (by decide) 3
  obtain ⟨cvF, hF⟩ := volumes_exist_step_one (z := zoomLinear) (pc := Pandora.windowCost 1 sad) (cfg := ⟨1, 1, 1, .min⟩) (roi := none)
    (margins := none) hpF (by decide) rfl rfl
  obtain ⟨cvC, hC⟩ := volumes_exist_step_one (z := zoomLinear) (pc := Pandora.windowCost 1 sad) (cfg := ⟨1, 1, 1, .min⟩)
    (roi := some ⟨4, 4, 1, 1, ⟨1, 1, 1, 1⟩⟩) (margins := none) hpC (by decide) rfl rfl
  obtain ⟨e1, e2, e3, e4, e5, -, -, -⟩ := compute_char hpF (by decide) (by decide) hF
  obtain ⟨f1, f2, f3, f4, f5, -, -, -⟩ := compute_char hpC (by decide) (by decide) hC
  have pxF : Pixel cvF 1 4 := ⟨by rw [e1]; decide +kernel, by rw [e2]; decide +kernel⟩
  have pxC : Pixel cvC 1 1 := ⟨by rw [f1]; decide +kernel, by rw [f2]; decide +kernel⟩
  have gr : cvF.row.get 1 = 1 := by rw [e1]; decide +kernel
  have gc : cvF.col.get 4 = 4 := by rw [e2]; decide +kernel
  have gr' : cvC.row.get 1 = 1 := by rw [f1]; decide +kernel
  have gc' : cvC.col.get 1 = 4 := by rw [f2]; decide +kernel
  have nc : cvF.dispCol.n = 3 ∧ cvF.dispRow.n = 1 ∧ cvF.dispCol.get 2 = ((1 : ℤ) : ℚ) ∧ cvF.dispRow.get 0 = ((0 : ℤ) : ℚ) := by
    rw [e3, e4]; decide +kernel
  have nc' : cvC.dispCol.n = 3 ∧ cvC.dispRow.n = 1 ∧ cvC.dispCol.get 2 = ((1 : ℤ) : ℚ) ∧ cvC.dispRow.get 0 = ((0 : ℤ) : ℚ) := by
    rw [f3, f4]; decide +kernel
  have ui : UserCol cvC 2 := by rw [UserCol, f5]; show 2 < cvC.dispCol.n; omega
  have uj : UserRow cvC 0 := by rw [UserRow, f5]; show 0 < cvC.dispRow.n; omega
  have ui' : UserCol cvF 2 := by rw [UserCol, e5]; show 2 < cvF.dispCol.n; omega
  have uj' : UserRow cvF 0 := by rw [UserRow, e5]; show 0 < cvF.dispRow.n; omega
  have key := hst ⟨1, 1, 1, .min⟩ _ _ _ _ cvF cvC 0 3 1 sad ⟨4, 4, 1, 1, ⟨1, 1, 1, 1⟩⟩ ⟨4, 4, 1, 1, ⟨1, 1, 1, 1⟩⟩
    ⟨4, 4, 1, 1, ⟨1, 1, 1, 1⟩⟩ ⟨.const 0, 1⟩ ⟨.const 0, 0⟩ flat_crop hpF hpC (by decide) rfl rfl (by decide) ⟨rfl, rfl⟩ rfl rfl rfl
    (by decide) ⟨by decide, by decide, by decide, by decide, by decide, by decide, by decide⟩ hF hC 1 1 1 4 2 0 2 0 pxC pxF
    (by rw [gr, gr']) (by rw [gc, gc']) (by rw [gr']; decide) (by rw [gc']; decide) ui uj ui' uj'
    (by rw [nc.2.2.2, nc'.2.2.2]) (by rw [nc.2.2.1, nc'.2.2.1])
  have simple : ∀ w col0, SimpleRanges ⟨1, 1, 1, .min⟩ (flatLeft w col0) := fun _ _ => Or.inr ⟨rfl, rfl⟩
  obtain ⟨F1, -, -⟩ := cells_of hpF (by decide) (by decide) (simple _ _) hF pxF (a := 1) (b := 4) (by rw [gr]; rfl) (by rw [gc]; rfl)
    (by decide) (by decide) ui' uj'
  obtain ⟨C1, -, -⟩ := cells_of hpC (by decide) (by decide) (simple _ _) hC pxC (a := 1) (b := 1) (by rw [gr']; rfl) (by rw [gc']; rfl)
    (by decide) (by decide) ui uj
  rw [nc'.2.2.1, nc'.2.2.2] at C1
  rw [nc.2.2.1, nc.2.2.2] at F1
  rw [C1 (by simp [InRange, flatLeft]), F1 (by simp [InRange, flatLeft]), slab_int, slab_int] at key
  rw [window_zero sad_dissimilarity (left := (flatLeft 9 0).img) (dr := 0) (fun _ _ _ _ _ _ _ _ _ _ => rfl) (a := 1) (b := 4)
    (by unfold BothInside; decide) ⟨fun x y _ _ _ _ => ⟨⟨_, rfl⟩, by simp [flatLeft, flat], rfl⟩, rfl⟩ (by decide)] at key
  unfold Pandora.windowCost at key
  rw [if_neg] at key
  · exact absurd key (by simp)
  · intro ok
    have := ok.2.1.2
    rw [show ((1 : ℕ) : ℚ) + ((1 : ℤ) : ℚ) = ((2 : ℤ) : ℚ) by norm_num, Int.ceil_intCast] at this
    exact absurd this (by decide)

/-- The hypotheses of `C20_same_cost_partial` on the same pair, with margins of two: the displaced window of the disparity 1 is covered. -/
example : MarginsCover (K := ℚ) ⟨4, 4, 1, 1, ⟨2, 1, 2, 1⟩⟩ 1 0 1 ∧ CropOk (flat 5 2) ⟨4, 4, 1, 1, ⟨2, 1, 2, 1⟩⟩ 3 9 ∧
    CropPair (flatLeft 9 0) (flat 9 0) (flatLeft 5 2) (flat 5 2) 0 2 ∧
    (∃ cv, computeCostVolumes zoomLinear (Pandora.windowCost 1 sad) ⟨1, 1, 1, .min⟩ (some ⟨4, 4, 1, 1, ⟨2, 1, 2, 1⟩⟩) (flatLeft 5 2)
      (flat 5 2) none = .ok cv) := by
  have h : CropOf (flat 9 0) (flat 5 2) 0 2 :=
    ⟨by decide, by decide, rfl, rfl, fun _ _ _ _ => rfl, rfl, fun _ _ _ _ => rfl, fun _ _ _ _ => rfl⟩
  refine ⟨by simp [MarginsCover], ⟨by decide, by decide, by decide, by decide, by decide, by decide, by decide⟩,
    ⟨h, h, fun _ _ _ _ => ⟨rfl, rfl⟩, fun _ _ _ _ => ⟨rfl, rfl⟩⟩,
    volumes_exist_step_one (flat_pair 5 (by decide) 2) (by decide) rfl rfl⟩

end Verif.Props
