import Verif.Spec.Agreement
import Verif.Props.Translation
import Verif.Props.Criteria

/-!
# Property C58: criteria and costs agree
-/

set_option linter.unusedSectionVars false

namespace Verif.Props

open Verif Verif.ImgTools Verif.MatchingCost Verif.Spec Verif.Disparity Verif.Criteria

variable {K : Type} [Field K] [LinearOrder K] [IsStrictOrderedRing K] [FloorRing K]
variable {z : Zoom K} {cfg : Cfg} {roi : Option Roi} {left : Left K} {right : Img K} {margins : Option Margins} {cv : CostVolumes K}

theorem invalidAt_shift (img : Img K) (d : Int) (r c : Nat) : Pandora.invalidAt (shiftDispRow img d) r c = false := by
  unfold Pandora.invalidAt shiftDispRow
  simp only [decide_eq_false_iff_not, not_and, not_not]
  intro h
  split_ifs at h ⊢ <;> simp_all

theorem noDataAt_shift (img : Img K) (d : Int) (r c : Nat) :
    Pandora.noDataAt (shiftDispRow img d) r c = F.eq ((shiftDispRow img d).im r c) img.noData := by
  unfold Pandora.noDataAt
  simp only [shiftDispRow]
  split_ifs <;> simp_all

/-- Rows of the right image whose position `r + d` has the two neighbours needed by the resampling. -/
def RowExists (h : Nat) (d : K) (x : Nat) : Prop := 0 ≤ (x : Int) + ⌊d⌋ ∧ (x : Int) + ⌈d⌉ < h

/-- No-data and values of the displaced image. -/
theorem slab_spec (hn : right.noData ≠ .nan) (hm : FaithfulMask right) (hfd : FiniteData right)
    {s : Nat} (hs : 0 < s) (hz : ZoomData z right s) {d : K} (hd : ∃ k : Int, d * s = k) {x y : Nat} (hy : y < right.w) :
    (Pandora.noDataAt (slabImg z right s d) x y = true ↔
      ¬ RowExists right.h d x ∨ ∃ k : Int, d = k ∧ Pandora.noDataAt right ((x : Int) + k).toNat y = true) ∧
    (Pandora.noDataAt (slabImg z right s d) x y = false → ∃ v, (slabImg z right s d).im x y = .fin v) := by
  have hnn : F.eq right.noData right.noData = true := by
    rw [F.eq_iff]
    exact ⟨rfl, (isNaN_false_iff _).2 hn⟩
  by_cases hint : ∃ k : Int, d = k
  · obtain ⟨k, rfl⟩ := hint
    rw [slab_int, noDataAt_shift]
    unfold RowExists
    rw [Int.floor_intCast, Int.ceil_intCast]
    by_cases hin : 0 ≤ (x : Int) + k ∧ (x : Int) + k < right.h
    · have e : (shiftDispRow right k).im x y = right.im ((x : Int) + k).toNat y := by
        simp only [shiftDispRow]
        rw [if_pos hin]
      have hr : ((x : Int) + k).toNat < right.h := by omega
      have hx := hm.exact _ hr y hy
      rw [e]
      constructor
      · rw [F.eq_iff]
        constructor
        · rintro ⟨h1, -⟩
          exact Or.inr ⟨k, rfl, hx.2 h1⟩
        · rintro (h | ⟨k', hk', h⟩)
          · exact absurd hin h
          · rw [Int.cast_inj] at hk'
            subst hk'
            have := hx.1 h
            exact ⟨this, by rw [this]; exact (isNaN_false_iff _).2 hn⟩
      · intro h
        apply hfd _ hr y hy
        rw [Bool.eq_false_iff]
        intro h2
        have := hx.1 h2
        rw [this, hnn] at h
        cases h
    · have e : (shiftDispRow right k).im x y = right.noData := by
        simp only [shiftDispRow]
        rw [if_neg hin]
      rw [e, hnn]
      simp [hin]
  · have hfr : iRight d s ≠ 0 ∧ iRight d s < s := by
      obtain ⟨k, hk'⟩ := hd
      refine ⟨?_, ?_⟩
      · unfold iRight
        intro h0
        apply hint
        have hsK : (0 : K) < s := by exact_mod_cast hs
        have h1 : Int.fract d * s = ((k - ⌊d⌋ * s : Int) : K) := by
          rw [Int.fract]; push_cast; rw [sub_mul, hk']
        rw [h1, Int.floor_intCast] at h0
        have h2 : (0 : K) ≤ Int.fract d * s := mul_nonneg (Int.fract_nonneg d) hsK.le
        rw [h1] at h2
        have h3 : (0 : Int) ≤ k - ⌊d⌋ * s := by exact_mod_cast h2
        have h4 : k - ⌊d⌋ * (s : Int) = 0 := by omega
        rw [h4, Int.cast_zero] at h1
        have h5 : Int.fract d = 0 := by
          rcases mul_eq_zero.1 h1 with h | h
          · exact h
          · exact absurd h hsK.ne'
        exact ⟨⌊d⌋, by rw [← Int.floor_add_fract d, h5]; simp⟩
      · unfold iRight
        have hsK : (0 : K) < s := by exact_mod_cast hs
        have : ⌊Int.fract d * (s : K)⌋ < (s : Int) := by
          rw [Int.floor_lt]
          have := mul_lt_mul_of_pos_right (Int.fract_lt_one d) hsK
          rw [one_mul] at this
          exact_mod_cast this
        omega
    have hceil : ⌈d⌉ = ⌊d⌋ + 1 := by
      apply le_antisymm (Int.ceil_le_floor_add_one d)
      by_contra hlt
      apply hint
      refine ⟨⌊d⌋, le_antisymm ?_ (Int.floor_le d)⟩
      exact (Int.le_ceil d).trans (Int.cast_le.2 (by omega))
    unfold slabImg
    rw [noDataAt_shift]
    have hnd : (zoomed z right s (iRight d s)).noData = right.noData := by
      unfold zoomed
      rw [if_neg hfr.1]
    have hhh : (zoomed z right s (iRight d s)).h = right.h := by
      unfold zoomed
      rw [if_neg hfr.1]
    rw [hnd]
    have hno : ¬ ∃ k : Int, d = k ∧ Pandora.noDataAt right ((x : Int) + k).toNat y = true := by
      rintro ⟨k, hk', -⟩
      exact hint ⟨k, hk'⟩
    unfold RowExists
    rw [hceil]
    by_cases hin : 0 ≤ (x : Int) + ⌊d⌋ ∧ (x : Int) + (⌊d⌋ + 1) < right.h
    · obtain ⟨v, hv, hvn⟩ := hz (iRight d s) (by omega) hfr.2 ((x : Int) + ⌊d⌋).toNat (by omega) y hy
      have e : (shiftDispRow (zoomed z right s (iRight d s)) ⌊d⌋).im x y = .fin v := by
        simp only [shiftDispRow]
        rw [hhh, if_pos ⟨hin.1, by omega⟩]
        unfold zoomed
        rw [if_neg hfr.1]
        simp only
        rw [if_pos (by omega), hv]
      rw [e]
      refine ⟨?_, fun _ => ⟨v, rfl⟩⟩
      rw [F.eq_iff]
      constructor
      · exact fun h => absurd h.1 hvn
      · rintro (h | h)
        · exact absurd hin h
        · exact absurd h hno
    · have e : (shiftDispRow (zoomed z right s (iRight d s)) ⌊d⌋).im x y = right.noData := by
        simp only [shiftDispRow]
        rw [hhh]
        split_ifs with h
        · unfold zoomed
          rw [if_neg hfr.1]
          simp only
          rw [if_neg (by omega)]
        · exact hnd
      rw [e, hnn]
      simp [hin]

/-- The conditions of Pandora on the windows are the conditions announced by the criteria, and the windows kept are finite. -/
theorem windows_agree {o : Nat} {l : Img K} (hn : right.noData ≠ .nan) (hm : FaithfulMask right) (hfd : FiniteData right) (hfl : FiniteData l)
    {s : Nat} (hs : 0 < s) (hz : ZoomData z right s) {d e : K} (hd : ∃ k : Int, d * s = k)
    (hint : right.msk.isSome = true → ∃ k : Int, e = k)
    {gmin gmax : Arr2 Int} {r c : Nat} (hg : (gmin.get r c : K) ≤ e ∧ e ≤ (gmax.get r c : K)) :
    (Pandora.windowOk o l (slabImg z right s d) gmin gmax r c e ↔
      WindowInside l.h l.w o (r : K) (c : K) ∧ ¬ NoDataInWindow l o r c ∧ (Pandora.invalidAt l r c = false) ∧
      WindowInside right.h right.w o ((r : K) + d) ((c : K) + e) ∧
      ∀ y' x' : Int, (y' : K) = (r : K) + d → (x' : K) = (c : K) + e → ¬ NoDataPixel right o y' x') ∧
    (Pandora.windowOk o l (slabImg z right s d) gmin gmax r c e →
      ∀ p ∈ Pandora.windowPairs o l (slabImg z right s d) r c ((c : K) + e), ∃ x y, p = (.fin x, .fin y)) := by
  have hsw : (slabImg z right s d).w = right.w := by
    unfold slabImg shiftDispRow zoomed
    split_ifs <;> rfl
  have castU : ∀ (n : Nat) (y : K), y ≤ (n : K) - 1 - (o : K) ↔ ⌈y⌉ + (o : Int) < n := by
    intro n y
    have : (n : K) - 1 - (o : K) = (((n : Int) - 1 - o : Int) : K) := by push_cast; ring
    rw [this, ← Int.ceil_le]
    omega
  have castL : ∀ y : K, (o : K) ≤ y ↔ (o : Int) ≤ ⌊y⌋ := by
    intro y
    rw [Int.le_floor]
    push_cast
    rfl
  have cn : ∀ n : Nat, ⌈(n : K)⌉ = (n : Int) ∧ ⌊(n : K)⌋ = (n : Int) := fun n => ⟨Int.ceil_natCast n, Int.floor_natCast n⟩
  have frow : ⌊(r : K) + d⌋ = r + ⌊d⌋ := Int.floor_natCast_add r d
  have crow : ⌈(r : K) + d⌉ = r + ⌈d⌉ := by rw [add_comm, Int.ceil_add_natCast, add_comm]
  have wl : WindowInside l.h l.w o (r : K) (c : K) ↔ (o ≤ r ∧ r + o < l.h ∧ o ≤ c ∧ c + o < l.w) := by
    unfold WindowInside
    rw [castU, castU, castL, castL, (cn r).1, (cn r).2, (cn c).1, (cn c).2]
    omega
  have wr : WindowInside right.h right.w o ((r : K) + d) ((c : K) + e) ↔
      (((o : Int) ≤ r + ⌊d⌋ ∧ (r : Int) + ⌈d⌉ + o < right.h) ∧ ((o : Int) ≤ ⌊(c : K) + e⌋ ∧ ⌈(c : K) + e⌉ + (o : Int) < right.w)) := by
    unfold WindowInside
    rw [castU, castU, castL, castL, frow, crow]
  have hfc : ⌊(c : K) + e⌋ ≤ ⌈(c : K) + e⌉ := Int.floor_le_ceil _
  have fdc : ⌊d⌋ ≤ ⌈d⌉ := Int.floor_le_ceil _
  have slab := fun x y hy => slab_spec (z := z) hn hm hfd hs hz hd (x := x) (y := y) hy
  refine ⟨⟨?_, ?_⟩, ?_⟩
  · rintro ⟨b1, b2, -, b4, b5, b6, -, -⟩
    rw [hsw] at b2
    have rowsOk : ∀ a < 2 * o + 1, RowExists right.h d (r + a - o) := by
      intro a ha
      have h1 := b5 a ha ⌊(c : K) + e⌋.toNat (by omega) (by omega)
      by_contra hne
      rw [((slab (r + a - o) ⌊(c : K) + e⌋.toNat (by omega)).1).2 (Or.inl hne)] at h1
      cases h1
    have r0 := rowsOk 0 (by omega)
    have r1 := rowsOk (2 * o) (by omega)
    unfold RowExists at r0 r1
    refine ⟨wl.2 b1, ?_, b6, wr.2 ⟨⟨by omega, by omega⟩, b2⟩, ?_⟩
    · rintro ⟨x, hx, y, hy, h1, h2, h3⟩
      rw [abs_le] at h1 h2
      have := b4 (x + o - r) (by omega) (y + o - c) (by omega)
      rw [show r + (x + o - r) - o = x by omega, show c + (y + o - c) - o = y by omega, h3] at this
      cases this
    · rintro y' x' hy' hx' ⟨-, x, hx, y, hy, h1, h2, h3⟩
      rw [abs_le] at h1 h2
      have hd' : d = ((y' - r : Int) : K) := by push_cast; linarith
      have hfl : ⌊d⌋ = y' - r := by rw [hd', Int.floor_intCast]
      have hce : ⌈d⌉ = y' - r := by rw [hd', Int.ceil_intCast]
      rw [← hx', Int.floor_intCast, Int.ceil_intCast] at b2 b5
      have h5 := b5 (((x : Int) - y' + o).toNat) (by omega) y (by omega) (by omega)
      rw [((slab _ y hy).1).2 (Or.inr ⟨y' - r, hd', ?_⟩)] at h5
      · cases h5
      · rw [show (((r + ((x : Int) - y' + o).toNat - o : Nat) : Int) + (y' - r)).toNat = x by omega]
        exact h3
  · rintro ⟨a1, a2, a3, a4, a5⟩
    rw [wl] at a1
    rw [wr] at a4
    refine ⟨a1, by rw [hsw]; exact a4.2, hg, ?_, ?_, a3, ?_, ?_⟩
    · intro a ha b hb
      rw [Bool.eq_false_iff]
      intro h
      exact a2 ⟨r + a - o, by omega, c + b - o, by omega, by rw [abs_le]; omega, by rw [abs_le]; omega, h⟩
    · intro a ha x h1 h2
      rw [Bool.eq_false_iff, ne_eq, (slab (r + a - o) x (by omega)).1]
      rintro (h | ⟨k, rfl, h⟩)
      · apply h
        unfold RowExists
        omega
      · have hms : right.msk.isSome = true := by
          unfold Pandora.noDataAt at h
          split at h
          · cases h
          · rename_i hm'
            rw [hm']
            rfl
        obtain ⟨q, rfl⟩ := hint hms
        rw [show (c : K) + ((q : Int) : K) = (((c : Int) + q : Int) : K) by push_cast; rfl] at h1 h2 a4
        rw [Int.floor_intCast] at h1 a4
        rw [Int.ceil_intCast] at h2 a4
        rw [Int.floor_intCast, Int.ceil_intCast] at a4
        refine a5 (r + k) (c + q) (by push_cast; rfl) (by push_cast; rfl) ⟨by omega, _, ?_, x, by omega, ?_, ?_, h⟩
        · omega
        · rw [abs_le]; omega
        · rw [abs_le]; omega
    · exact invalidAt_shift _ _ _ _
    · exact invalidAt_shift _ _ _ _
  · rintro ⟨b1, b2, -, b4, b5, b6, -, -⟩ p hp
    rw [hsw] at b2
    unfold Pandora.windowPairs at hp
    rw [List.mem_flatMap] at hp
    obtain ⟨u, hu, hp⟩ := hp
    rw [List.mem_map] at hp
    obtain ⟨v, hv, rfl⟩ := hp
    rw [List.mem_range] at hu hv
    obtain ⟨k1, hk1⟩ := hfl (r + u - o) (by omega) (c + v - o) (by omega) (b4 u hu v hv)
    have hsamp : ∀ y : Nat, ⌊(c : K) + e⌋ ≤ (y : Int) + o → (y : Int) ≤ ⌈(c : K) + e⌉ + o →
        ∃ q, (slabImg z right s d).im (r + u - o) y = .fin q := fun y h1 h2 =>
      (slab (r + u - o) y (by omega)).2 (b5 u hu y h1 h2)
    have hx : (c : K) + e + (v : K) - (o : K) = (c : K) + e + (((v : Int) - o : Int) : K) := by push_cast; ring
    rw [hx]
    have hflo : ⌊(c : K) + e + (((v : Int) - o : Int) : K)⌋ = ⌊(c : K) + e⌋ + (v - o) := Int.floor_add_intCast _ _
    have hfra : Int.fract ((c : K) + e + (((v : Int) - o : Int) : K)) = Int.fract ((c : K) + e) := Int.fract_add_intCast _ _
    unfold Pandora.sampleCol
    rw [hfra, hflo]
    split_ifs with h0
    · obtain ⟨q, hq⟩ := hsamp (⌊(c : K) + e⌋ + (v - o)).toNat (by omega) (by omega)
      rw [hk1, hq]
      exact ⟨_, _, rfl⟩
    · have hc1 : ⌈(c : K) + e⌉ = ⌊(c : K) + e⌋ + 1 := by
        apply le_antisymm (Int.ceil_le_floor_add_one _)
        by_contra hlt
        apply h0
        rw [Int.fract]
        have h1 : (c : K) + e ≤ (⌊(c : K) + e⌋ : K) := (Int.le_ceil _).trans (Int.cast_le.2 (by omega))
        have h2 := Int.floor_le ((c : K) + e)
        linarith
      obtain ⟨q, hq⟩ := hsamp (⌊(c : K) + e⌋ + (v - o)).toNat (by omega) (by omega)
      obtain ⟨q', hq'⟩ := hsamp ((⌊(c : K) + e⌋ + (v - o)).toNat + 1) (by omega) (by omega)
      rw [hk1, hq, hq']
      exact ⟨_, _, rfl⟩

/-- C58 (partial): the criteria of a candidate of the user's ranges is `VALID` if and only if its cost is not NaN. Step one; every
subpixel factor (one if the right image has a mask), window, ranges, margins and region of interest. Missing: right images with pixels
declared invalid, whose mask is lost by the row shift (`C58_false`), and images where values which are not no-data equal the no-data value. -/
theorem C58_valid_iff_cost_partial {o : Nat} {ker : List (F K × F K) → F K} (hk : FiniteKernel ker) (hp : PairOk left right)
    (hs : 0 < cfg.subpix) (h1 : cfg.stepRow = 1) (h2 : cfg.stepCol = 1) (hsub : right.msk.isSome = true → cfg.subpix = 1)
    (hn : right.noData ≠ .nan) (hm : FaithfulMask right) (hfr : FiniteData right) (hfl : FiniteData left.img)
    (hz : ZoomData z right cfg.subpix)
    (h : computeCostVolumes z (Pandora.windowCost o ker) cfg roi left right margins = .ok cv) :
    ∃ y, getCriteria left right (2 * o + 1) o cv = .ok y ∧
      ∀ r < left.img.h, ∀ c < left.img.w, ∀ i j, UserCol cv i → UserRow cv j →
        (y.data r c i j = VALID ↔ cv.data r c i j ≠ .nan) := by
  obtain ⟨hfc, hint, -⟩ := C24_after_matching_cost_partial hp hs h1 h2 hsub h o
  obtain ⟨y, hy, hv⟩ := C24_valid_iff_partial left right o cv hp hfc hint
  refine ⟨y, hy, fun r hr c hc i j ui uj => ?_⟩
  obtain ⟨hi, ci⟩ := userCol_src hp hs (by omega) h ui
  obtain ⟨hj, rj⟩ := userRow_src hp hs (by omega) h uj
  obtain ⟨-, -, e3, e4, -, -, -, hd⟩ := compute_char hp hs (by omega) h
  rw [hv r hr c hc i hi j hj, hd r (by rw [hfc.1.1]; exact hr) c (by rw [hfc.2.1]; exact hc) i hi j hj,
    hfc.1.2 r hr, hfc.2.2 c hc, show (left.img.row0 + (r : Int) - left.img.row0).toNat = r by omega,
    show (left.img.col0 + (c : Int) - left.img.col0).toNat = c by omega]
  have mr : MaskedBy left.rowDisp r c (cv.dispRow.get j) ↔ ¬ InRange left.rowDisp r c (cv.dispRow.get j) := by
    rw [maskedBy_iff hp.row hr hc]
    exact ⟨fun h => h.1, fun h => ⟨h, rj⟩⟩
  have mc : MaskedBy left.colDisp r c (cv.dispCol.get i) ↔ ¬ InRange left.colDisp r c (cv.dispCol.get i) := by
    rw [maskedBy_iff hp.col hr hc]
    exact ⟨fun h => h.1, fun h => ⟨h, ci⟩⟩
  have hmul : ∃ k : Int, cv.dispRow.get j * cfg.subpix = k := by
    have := axisRow_spec hp margins hs
    rw [← e4] at this
    exact axis_multiple hs this hj
  by_cases hir : InRange left.rowDisp r c (cv.dispRow.get j) ∧ InRange left.colDisp r c (cv.dispCol.get i)
  · rw [if_neg (by rw [mr, mc]; rintro (h | h); exact h hir.1; exact h hir.2)]
    have hg : ((widened left.colDisp.lo (-((mgD margins).left : Int))).get r c : K) ≤ cv.dispCol.get i ∧
        cv.dispCol.get i ≤ ((widened left.colDisp.hi (mgD margins).right).get r c : K) := by
      unfold widened
      have := hir.2
      unfold InRange at this
      refine ⟨le_trans (Int.cast_le.2 (by simp only; omega)) this.1, le_trans this.2 (Int.cast_le.2 (by simp only; omega))⟩
    obtain ⟨w1, w2⟩ := windows_agree (z := z) (o := o) (l := left.img) hn hm hfr hfl hs hz hmul (e := cv.dispCol.get i)
      (fun q => (hint q).2.2 i hi) hg
    have inv : Pandora.invalidAt left.img r c = false ↔ ¬ InvalidPixel left.img r c := by
      unfold InvalidPixel
      rw [Bool.eq_false_iff]
      constructor
      · rintro q ⟨-, q'⟩
        exact q (by simpa using q')
      · intro q q'
        exact q ⟨by omega, by simpa using q'⟩
    constructor
    · rintro ⟨-, a2, a3, a4, a5, a6⟩
      have ok := w1.2 ⟨a2, a3, inv.2 a4, a5, fun y' x' q1 q2 => (a6 y' x' q1 q2).1⟩
      unfold Pandora.windowCost
      rw [if_pos ok]
      exact hk _ (w2 ok)
    · intro hne
      unfold Pandora.windowCost at hne
      split_ifs at hne with ok
      · obtain ⟨a2, a3, a4, a5, a6⟩ := w1.1 ok
        refine ⟨hir, a2, a3, inv.1 a4, a5, fun y' x' q1 q2 => ⟨a6 y' x' q1 q2, ?_⟩⟩
        rintro ⟨q3, q4⟩
        rw [hm.valid _ (by omega) _ (by omega)] at q4
        cases q4
      · exact absurd rfl hne
  · rw [if_pos (by rw [mr, mc]; by_contra hno; push Not at hno; exact hir hno)]
    constructor
    · rintro ⟨q, -⟩; exact absurd q hir
    · intro q; exact absurd rfl q

theorem sumOf_finite (f : K → K → K) : FiniteKernel (sumOf f) := by
  have key : ∀ l : List (F K × F K), (∀ p ∈ l, ∃ x y, p = (.fin x, .fin y)) → ∃ k, sumOf f l = .fin k := by
    intro l
    induction l with
    | nil => exact fun _ => ⟨0, rfl⟩
    | cons p l ih =>
      intro h
      obtain ⟨x, y, rfl⟩ := h p (List.mem_cons_self ..)
      obtain ⟨k, hk⟩ := ih fun q hq => h q (List.mem_cons_of_mem _ hq)
      refine ⟨f x y + k, ?_⟩
      show F.add _ _ = _
      rw [hk]
      rfl
  intro l hl
  obtain ⟨k, hk⟩ := key l hl
  rw [hk]
  simp

/-- The hypotheses of `C58_valid_iff_cost_partial` on the 5 x 3 pair, with a subpixel factor of 2 and margins. -/
example : FiniteKernel (sad : List (F ℚ × F ℚ) → F ℚ) ∧ exRightImg.noData ≠ .nan ∧ FaithfulMask exRightImg ∧ FiniteData exRightImg ∧
    FiniteData exLeft.img ∧ ZoomData zoomLinear exRightImg 2 ∧
    ∃ cv, computeCostVolumes zoomLinear (Pandora.windowCost 1 sad) ⟨2, 1, 1, .min⟩ none exLeft exRightImg (some ⟨1, 0, 2, 1⟩) = .ok cv := by
  refine ⟨sumOf_finite _, by decide, ⟨?_, ?_⟩, ?_, ?_, ?_, volumes_exist_step_one exPair (by decide) rfl rfl⟩
  · decide +kernel
  · decide +kernel
  · exact fun r _ c _ _ => ⟨_, rfl⟩
  · exact fun r _ c _ _ => ⟨_, rfl⟩
  · intro ind h1 h2 t ht c hc
    have hi : ind = 1 := by omega
    subst hi
    have key : ∀ t < 4, ∀ c < 3, zoomLinear exRightImg 2 (1 + t * 2) c = .fin (10 * t + c - 5) ∧
        F.fin (10 * t + c - 5 : ℚ) ≠ exRightImg.noData := by decide +kernel
    exact ⟨_, key t (by have : exRightImg.h = 5 := rfl; omega) c hc⟩

/-- The full statement of C58, for integer disparities and a step of one. -/
def C58Statement (K : Type) [Field K] [LinearOrder K] [IsStrictOrderedRing K] [FloorRing K] : Prop :=
  ∀ (z : Zoom K) (cfg : Cfg) (left : Left K) (right : Img K) (cv : CostVolumes K) (o : Nat) (ker : List (F K × F K) → F K)
    (y : Crit K), FiniteKernel ker → PairOk left right → cfg.subpix = 1 → cfg.stepRow = 1 → cfg.stepCol = 1 →
    FiniteData right → FiniteData left.img →
    computeCostVolumes z (Pandora.windowCost o ker) cfg none left right none = .ok cv →
    getCriteria left right (2 * o + 1) o cv = .ok y →
    ∀ r < left.img.h, ∀ c < left.img.w, ∀ i j, UserCol cv i → UserRow cv j → (y.data r c i j = VALID ↔ cv.data r c i j ≠ .nan)

def oneLeft (K : Type) [Field K] : Left K := ⟨⟨1, 1, 0, 0, fun _ _ => .fin 0, none, .fin 1, 0, 1⟩,
  ⟨⟨1, 1, fun _ _ => 0⟩, ⟨1, 1, fun _ _ => 0⟩, (0, 0)⟩, ⟨⟨1, 1, fun _ _ => 0⟩, ⟨1, 1, fun _ _ => 0⟩, (0, 0)⟩⟩

/-- One pixel, declared invalid by the mask. -/
def oneRight (K : Type) [Field K] : Img K := ⟨1, 1, 0, 0, fun _ _ => .fin 0, some fun _ _ => 2, .fin 1, 0, 1⟩

theorem one_pair : PairOk (oneLeft K) (oneRight K) := by
  refine ⟨Nat.one_pos, Nat.one_pos, rfl, rfl, ⟨⟨rfl, rfl, rfl, rfl⟩, ?_, ?_, ?_, ?_⟩, ⟨⟨rfl, rfl, rfl, rfl⟩, ?_, ?_, ?_, ?_⟩⟩
  · intro r _ c _; simp [oneLeft]
  · intro r _ c _; simp [oneLeft]
  · exact ⟨0, Nat.one_pos, 0, Nat.one_pos, rfl⟩
  · exact ⟨0, Nat.one_pos, 0, Nat.one_pos, rfl⟩
  · intro r _ c _; simp [oneLeft]
  · intro r _ c _; simp [oneLeft]
  · exact ⟨0, Nat.one_pos, 0, Nat.one_pos, rfl⟩
  · exact ⟨0, Nat.one_pos, 0, Nat.one_pos, rfl⟩

/-- C58 is false: the mask of the right image is not kept by the row shift, so that a candidate which falls on a pixel declared invalid
has a cost, and can be chosen, although the criteria flag it. -/
theorem C58_false : ¬ C58Statement ℚ := by
  intro hst
  have hp := one_pair (K := ℚ)
  obtain ⟨cv, h⟩ := volumes_exist_step_one (z := zoomLinear) (pc := Pandora.windowCost 0 sad) (cfg := ⟨1, 1, 1, .min⟩) (roi := none)
    (margins := none) hp (by decide) rfl rfl
  obtain ⟨hfc, hint, -⟩ := C24_after_matching_cost_partial hp (by decide) rfl rfl (fun _ => rfl) h 0
  obtain ⟨y, hy, hv⟩ := C24_valid_iff_partial (oneLeft ℚ) (oneRight ℚ) 0 cv hp hfc hint
  obtain ⟨e1, e2, e3, e4, e5, -, -, hd⟩ := compute_char hp (by decide) (by decide) h
  have nc : cv.dispCol.n = 1 := by rw [e3]; decide +kernel
  have nr : cv.dispRow.n = 1 := by rw [e4]; decide +kernel
  have gc : cv.dispCol.get 0 = ((0 : ℤ) : ℚ) := by rw [e3]; decide +kernel
  have gr : cv.dispRow.get 0 = ((0 : ℤ) : ℚ) := by rw [e4]; decide +kernel
  have uc : UserCol cv 0 := by rw [UserCol, e5]; show 0 < cv.dispCol.n; omega
  have ur : UserRow cv 0 := by rw [UserRow, e5]; show 0 < cv.dispRow.n; omega
  have key := hst zoomLinear ⟨1, 1, 1, .min⟩ (oneLeft ℚ) (oneRight ℚ) cv 0 sad y (sumOf_finite _) hp rfl rfl rfl
    (fun _ _ _ _ _ => ⟨_, rfl⟩) (fun _ _ _ _ _ => ⟨_, rfl⟩) h hy 0 (by decide) 0 (by decide) 0 0 uc ur
  have hcost : cv.data 0 0 0 0 = .fin 0 := by
    rw [hd 0 (by rw [hfc.1.1]; decide) 0 (by rw [hfc.2.1]; decide) 0 (by omega) 0 (by omega), if_neg, gc, gr, slab_int,
      hfc.1.2 0 (by decide), hfc.2.2 0 (by decide)]
    · refine window_zero sad_dissimilarity (left := (oneLeft ℚ).img) (dr := 0) (fun _ _ _ _ _ _ _ _ _ _ => rfl) (a := 0) (b := 0)
        (by unfold BothInside; decide) ⟨fun x y _ _ _ _ => ⟨⟨_, rfl⟩, ?_, rfl⟩, rfl⟩ (by decide)
      simp [oneLeft, oneRight]
    · rw [gc, gr]
      rintro (q | q)
      · rw [maskedBy_iff hp.row (by decide) (by decide)] at q
        exact q.1 (by simp [oneLeft])
      · rw [maskedBy_iff hp.col (by decide) (by decide)] at q
        exact q.1 (by simp [oneLeft])
  have hval := key.2 (by rw [hcost]; simp)
  have := ((hv 0 (by decide) 0 (by decide) 0 (by omega) 0 (by omega)).1 hval).2.2.2.2.2 0 0 (by rw [gr]; simp) (by rw [gc]; simp)
  exact this.2 ⟨by decide, by decide⟩

end Verif.Props
