import Verif.Lemmas.MatchingCost
import Verif.Props.ImgTools
import Verif.Props.Masking
import Verif.Props.Disparity
import Mathlib.Data.Rat.Floor

/-!
# Properties C09, C12, C13, C16, C17: the matching cost step
-/

set_option linter.unusedSectionVars false

namespace Verif.Props

open Verif Verif.ImgTools Verif.MatchingCost Verif.Spec Verif.Disparity

/-- The grids written by `add_disparity_grid` (with a non negative range, as imposed by `check_disparity_types`) meet the
well-formedness used below. -/
theorem ranges_wf (row0 col0 : Int) (h w : Nat) (d : Disp) (right : Bool) (M : MinMax) (hh : 0 < h) (hw : 0 < w)
    (hr : 0 ≤ d.range) (hM : getMinMax row0 col0 h w d right = .ok M) : RangesOk M h w := by
  obtain ⟨a, b, c⟩ := C11_source_is_tight_hull row0 col0 h w d right M hh hw hM
  obtain ⟨s, p, -⟩ := getMinMax_spec hM
  refine ⟨s, fun r _ c' _ => ?_, a, b, c⟩
  cases hi : d.init with
  | const i => rw [hi] at p; have := p r c'; omega
  | grid g => rw [hi] at p; have := p.2.2 r c'; omega

variable {K : Type} [Field K] [LinearOrder K] [IsStrictOrderedRing K] [FloorRing K]

/-! ## C12 — subpixel row disparities -/

/-- C12: for every row disparity `d` which is a multiple of `1 / subpix` (negative ones included), the index of the
resampled image is a valid index and, added to the integer shift, gives `d` exactly. -/
theorem C12_decomposition (d : K) (s : Nat) (hs : 0 < s) (hd : ∃ k : Int, d * s = k) :
    iRight d s < s ∧ ((⌊d⌋ : Int) : K) + (iRight d s : K) / (s : K) = d := by
  obtain ⟨k, hk⟩ := hd
  have hs' : (s : K) ≠ 0 := by positivity
  have e : d = (k : K) / (s : K) := by rw [← hk]; field_simp
  have hlt := Int.emod_lt_of_pos k (b := s) (by omega)
  have hge := Int.emod_nonneg k (b := s) (by omega)
  have hi : iRight d s = (k % (s : Int)).toNat := by rw [e, iRight_eq k s hs]
  refine ⟨by omega, ?_⟩
  have hfl : ⌊d⌋ = k / (s : Int) := by rw [e, floor_div]
  have hik : (iRight d s : K) = ((k % (s : Int) : Int) : K) := by
    rw [hi]
    have : (((k % (s : Int)).toNat : Int) : K) = ((k % (s : Int) : Int) : K) := by rw [Int.toNat_of_nonneg hge]
    rw [← this, Int.cast_natCast]
  rw [hfl, hik, e]
  have := Int.emod_add_mul_ediv k s
  have h2 : (k : K) = ((k % (s : Int) : Int) : K) + (s : K) * ((k / (s : Int) : Int) : K) := by
    conv_lhs => rw [← this]
    push_cast
    rfl
  rw [h2]
  field_simp
  ring

/-- Test: subpix 4, `d = -1.25` (the comment of the code): image 3, shift -2. -/
example : iRight (-5 / 4 : ℚ) 4 = 3 ∧ ⌊(-5 / 4 : ℚ)⌋ = -2 := by
  constructor
  · norm_num [iRight, Int.fract]
    rfl
  · norm_num

theorem slab_samples (img : Img K) (s : Nat) (hs : 0 < s) (d : K) (hd : ∃ k : Int, d * s = k) :
    SamplesAt (slabImg zoomLinear img s d) img d := by
  obtain ⟨hi, hsum⟩ := C12_decomposition d s hs hd
  have hs' : (0 : K) < s := by positivity
  set i := iRight d s with hidef
  set fl := ⌊d⌋ with hfl
  have hf0 : 0 ≤ (i : K) / s := by positivity
  have hf1 : (i : K) / s < 1 := by rw [div_lt_one hs']; exact_mod_cast hi
  have himg : ∀ (r c : Nat), (slabImg zoomLinear img s d).im r c =
      if 0 ≤ (r : Int) + fl ∧ (r : Int) + fl < img.h then (zoomed zoomLinear img s i).im ((r : Int) + fl).toNat c
      else img.noData := by
    intro r c
    unfold slabImg shiftDispRow
    simp only [← hidef, ← hfl]
    have e1 : (zoomed zoomLinear img s i).h = img.h := by unfold zoomed; split <;> rfl
    have e2 : (zoomed zoomLinear img s i).noData = img.noData := by unfold zoomed; split <;> rfl
    rw [e1, e2]
  intro r hr c hc
  constructor
  · intro q f h0 h1 hpos hle
    have hq : ((r : Int) + fl) = q ∧ f = (i : K) / s := by
      have e : (((r : Int) + fl : Int) : K) + (i : K) / s = ((q : Int) : K) + f := by
        push_cast
        rw [← hpos, ← hsum]
        ring
      have e1 : ⌊(((r : Int) + fl : Int) : K) + (i : K) / s⌋ = (r : Int) + fl := by
        rw [Int.floor_intCast_add, Int.floor_eq_zero_iff.2 ⟨hf0, hf1⟩, add_zero]
      have e2 : ⌊((q : Int) : K) + f⌋ = q := by
        rw [Int.floor_intCast_add, Int.floor_eq_zero_iff.2 ⟨h0, h1⟩, add_zero]
      have e3 : (r : Int) + fl = q := by rw [← e1, e, e2]
      refine ⟨e3, ?_⟩
      rw [e3] at e
      exact (add_left_cancel e).symm
    obtain ⟨hq, rfl⟩ := hq
    have hqh : (q : K) + (i : K) / s ≤ ((img.h - 1 : Nat) : K) := by rw [← hpos]; exact hle
    have hqlt : q < img.h := by
      have : (q : K) ≤ ((img.h - 1 : Nat) : K) := by linarith
      have := Nat.cast_le.1 this
      omega
    rw [himg, if_pos (by omega), show ((r : Int) + fl).toNat = q by omega]
    unfold lerpRow zoomed
    by_cases hi0 : i = 0
    · rw [if_pos hi0, if_pos (by simp [hi0])]
    · have hfpos : 0 < (i : K) / s := by
        apply div_pos _ hs'
        exact_mod_cast Nat.pos_of_ne_zero hi0
      have hq1 : q < img.h - 1 := by
        have : (q : K) < ((img.h - 1 : Nat) : K) := by linarith
        exact_mod_cast this
      rw [if_neg hi0, if_neg (ne_of_gt hfpos)]
      simp only
      rw [if_pos hq1]
      unfold zoomLinear
      have m1 : (i + q * s) % s = i := by rw [Nat.add_mul_mod_self_right, Nat.mod_eq_of_lt hi]
      have m2 : (i + q * s) / s = q := by
        rw [Nat.add_mul_div_right _ _ hs, Nat.div_eq_of_lt hi, zero_add]
      rw [m1, m2, if_neg hi0]
  · intro hout
    rw [himg]
    by_cases hin : 0 ≤ (r : Int) + fl ∧ (r : Int) + fl < img.h
    · rw [if_pos hin]
      have hge : (0 : K) ≤ (r : K) + d := by
        rw [← hsum]
        have : (0 : K) ≤ (((r : Int) + fl : Int) : K) := by exact_mod_cast hin.1
        push_cast at this
        linarith
      have hgt : ((img.h - 1 : Nat) : K) < (r : K) + d := by
        rcases hout with h | h
        · linarith
        · exact h
      have h1 : (r : Int) + fl = (img.h - 1 : Nat) ∧ i ≠ 0 := by
        have : ((img.h - 1 : Nat) : K) < (((r : Int) + fl + 1 : Int) : K) := by
          push_cast
          rw [← hsum] at hgt
          linarith
        have h2 : ((img.h - 1 : Nat) : Int) < (r : Int) + fl + 1 := by exact_mod_cast this
        refine ⟨by omega, fun hi0 => ?_⟩
        rw [← hsum, hi0] at hgt
        have h3 : ((img.h - 1 : Nat) : K) < (((r : Int) + fl : Int) : K) := by
          push_cast
          simpa using hgt
        have h4 : ((img.h - 1 : Nat) : Int) < (r : Int) + fl := by exact_mod_cast h3
        omega
      unfold zoomed
      rw [if_neg h1.2]
      simp only
      rw [if_neg (by omega)]
    · rw [if_neg hin]

/-- C12 (consequence): the right images are resampled without error and, for every row disparity `d` which is a multiple of
`1 / subpix`, the resampled image selected for `d`, shifted by the integer part of `d`, samples the right image exactly `d` rows
away, with no-data where this position is outside the image. -/
theorem C12_sampled_at_label (img : Img K) (s : Nat) (hs : 0 < s) (hh : 0 < img.h) :
    ∃ imgs, shiftSubpix zoomLinear img s = .ok imgs ∧ ∀ d : K, (∃ k : Int, d * s = k) →
      ∃ x, imgs[iRight d s]? = some x ∧ SamplesAt (shiftDispRow x ⌊d⌋) img d := by
  obtain ⟨l, e, hl⟩ := shiftSubpix_ok zoomLinear img s hh
  exact ⟨l, e, fun d hd => ⟨_, hl _ (C12_decomposition d s hs hd).1, slab_samples img s hs d hd⟩⟩

/-- Test: rows 7, 8, 0 at disparity -1/2 (subpix 2): no-data (0), 15/2, 4. -/
example : (List.range 3).map (fun r => (slabImg zoomLinear exCol 2 (-1 / 2)).im r 0) = [.fin 0, .fin (15 / 2), .fin 4] := by
  have h1 : iRight (-1 / 2 : ℚ) 2 = 1 := by norm_num [iRight, Int.fract]
  have h2 : ⌊(-1 / 2 : ℚ)⌋ = -1 := by norm_num
  unfold slabImg
  rw [h1, h2]
  decide +kernel

/-! ## Characterisation of the computed volumes -/

section
variable {z : Zoom K} {pc : Pandora.Cost K} {cfg : Cfg} {roi : Option Roi} {left : Left K} {right : Img K}
  {margins : Option Margins} {cv : CostVolumes K}

/-- The cell is masked by the disparity range read at index `(r, c)` of the grids. -/
def MaskedBy (M : MinMax) (r c : Nat) (d : K) : Prop :=
  (r < M.lo.h ∧ c < M.lo.w) ∧ Common.outMask d (M.lo.get r c : K) (M.hi.get r c : K)
    (some ((M.src.1 : K), (M.src.2 : K))) = true

open Classical in
theorem compute_char (hp : PairOk left right) (hs : 0 < cfg.subpix) (h1 : 1 ≤ cfg.stepRow)
    (h : computeCostVolumes z pc cfg roi left right margins = .ok cv) :
    cv.row = rowCoords roi left.img.row0 left.img.h cfg.stepRow ∧
    cv.col = Pandora.colCoordinates (colMargin roi) left.img.col0 left.img.w cfg.stepCol ∧
    cv.dispCol = axisCol left margins cfg.subpix ∧ cv.dispRow = axisRow left margins cfg.subpix ∧
    cv.margins = margins ∧ cv.subpixel = cfg.subpix ∧ cv.measure = cfg.measure ∧
    ∀ r < cv.row.n, ∀ c < cv.col.n, ∀ i < cv.dispCol.n, ∀ j < cv.dispRow.n,
      cv.data r c i j =
        if MaskedBy left.rowDisp r c (cv.dispRow.get j) ∨ MaskedBy left.colDisp r c (cv.dispCol.get i) then .nan
        else pc left.img (slabImg z right cfg.subpix (cv.dispRow.get j))
          (widened left.colDisp.lo (-((mgD margins).left : Int))) (widened left.colDisp.hi (mgD margins).right)
          (cv.row.get r - left.img.row0).toNat (cv.col.get c - left.img.col0).toNat (cv.dispCol.get i) := by
  rw [show (widened : Arr2 Int → Int → Arr2 Int) = shiftGrid from rfl]
  obtain ⟨filled, ⟨n0, n1, n2, n3⟩, hf, e⟩ := compute_unfold z pc cfg roi left right margins hp hs h1
  rw [e] at h
  simp only [bind, Except.bind] at h
  split at h
  · simp at h
  · rename_i m1 hm1
    split at h
    · simp at h
    · rename_i m2 hm2
      simp only [pure, Except.pure, Except.ok.injEq] at h
      subst h
      obtain ⟨⟨a0, a1, a2, a3⟩, p1⟩ := Common.setOutOfRow_ok hm1
      obtain ⟨⟨b0, b1, b2, b3⟩, p2⟩ := Common.setOutOfCol_ok hm2
      refine ⟨rfl, rfl, rfl, rfl, rfl, rfl, rfl, ?_⟩
      intro r hr c hc i hi j hj
      simp only at hr hc hi hj ⊢
      rw [p2 r c i j, p1 r c i j, hf r (by omega) c i j (by omega)]
      have i1 : (r, c) ∈ Common.masking ((axisCol left margins cfg.subpix).get i) (castG left.colDisp.lo)
          (castG left.colDisp.hi) (castS left.colDisp.src) ↔
          MaskedBy left.colDisp r c ((axisCol left margins cfg.subpix).get i) := Common.mem_masking _ _ _ _ _ _
      have i2 : (r, c) ∈ Common.masking ((axisRow left margins cfg.subpix).get j) (castG left.rowDisp.lo)
          (castG left.rowDisp.hi) (castS left.rowDisp.src) ↔
          MaskedBy left.rowDisp r c ((axisRow left margins cfg.subpix).get j) := Common.mem_masking _ _ _ _ _ _
      have q1 : i < m1.n2 := by omega
      have q2 : j < filled.n3 := by omega
      simp only [q1, q2, true_and, i1, i2]
      by_cases m1' : MaskedBy left.colDisp r c ((axisCol left margins cfg.subpix).get i) <;>
        by_cases m2' : MaskedBy left.rowDisp r c ((axisRow left margins cfg.subpix).get j) <;> simp [m1', m2']

/-! ## C13 — disparity axes -/

theorem axis_lattice {a : Arr1 K} {lo hi : Int} {ml mr s : Nat} (hs : 0 < s) (hle : lo ≤ hi)
    (ha : IsAxis a lo hi ml mr s) : FullLattice a (lo - ml) (hi + mr) s := by
  obtain ⟨hn, hg⟩ := ha
  have hs' : (0 : K) < s := by positivity
  refine ⟨by omega, ?_, ?_, ?_, ?_, ?_⟩
  · rw [hg 0 (by omega)]; simp
  · rw [hg _ (by omega), hn, Nat.add_sub_cancel]
    have e : (((hi - lo).toNat : Int) : K) = ((hi - lo : Int) : K) := by rw [Int.toNat_of_nonneg (by omega)]
    rw [Int.cast_natCast] at e
    push_cast
    rw [e]
    push_cast
    field_simp
    ring
  · intro i hi'
    rw [hg _ hi', hg i (by omega)]
    push_cast
    ring
  · intro i j hij hj
    rw [hg j hj, hg i (by omega)]
    have : (i : K) / s < (j : K) / s := by
      rw [div_lt_div_iff_of_pos_right hs']
      exact_mod_cast hij
    linarith
  · intro k h1 h2
    rw [le_div_iff₀ hs'] at h1
    rw [div_le_iff₀ hs'] at h2
    have g1 : (lo - ml) * s ≤ k := by exact_mod_cast h1
    have g2 : k ≤ (hi + mr) * s := by exact_mod_cast h2
    have hi' : (k - (lo - ml) * s).toNat < a.n := by
      rw [hn]
      have : (((hi - lo).toNat + ml + mr) * s : Int) = (hi + mr) * s - (lo - ml) * s := by
        rw [Int.toNat_of_nonneg (by omega)]
        ring
      zify
      rw [Int.toNat_of_nonneg (by omega)]
      omega
    have val : ∀ i < a.n, a.get i = (k : K) / s ↔ i = (k - (lo - ml) * s).toNat := by
      intro i hi
      rw [hg i hi]
      constructor
      · intro e
        have e2 : (((lo - ml) * s + i : Int) : K) = (k : K) := by
          push_cast at e ⊢
          field_simp at e
          linarith
        have := Int.cast_injective e2
        omega
      · intro e
        have e2 : ((i : Int) : K) = ((k - (lo - ml) * s : Int) : K) := by
          rw [e, Int.toNat_of_nonneg (by omega)]
        rw [Int.cast_natCast] at e2
        rw [e2]
        push_cast
        field_simp
        ring
    exact ⟨_, hi', (val _ hi').2 rfl, fun i' hi'' e => (val i' hi'').1 e⟩

/-- C13: the disparity axes of the cost volumes hold exactly once, in increasing order, every multiple of `1 / subpix`
from the global minimum minus the margin to the global maximum plus the margin, in each direction. -/
theorem C13_axes_full_lattice (hp : PairOk left right) (hs : 0 < cfg.subpix) (h1 : 1 ≤ cfg.stepRow)
    (h : computeCostVolumes z pc cfg roi left right margins = .ok cv) :
    FullLattice cv.dispRow (left.rowDisp.src.1 - (mgD margins).up) (left.rowDisp.src.2 + (mgD margins).down) cfg.subpix ∧
    FullLattice cv.dispCol (left.colDisp.src.1 - (mgD margins).left) (left.colDisp.src.2 + (mgD margins).right)
      cfg.subpix := by
  obtain ⟨-, -, e1, e2, -⟩ := compute_char hp hs h1 h
  rw [e1, e2]
  exact ⟨axis_lattice hs (src_le hp.row) (axisRow_spec hp margins hs),
    axis_lattice hs (src_le hp.col) (axisCol_spec hp margins hs)⟩

/-! ## C17 — computed coordinates -/

theorem arange_grid (m : Option Int) (c0 : Int) (n step : Nat) (hs : 1 ≤ step) :
    IsGrid (arangeA (startCoord m c0 step) (c0 + n) step) (startCoord m c0 step) c0 n step :=
  ⟨fun _ _ => rfl, startCoord_ge m c0 step hs, fun _ => arangeA_mem hs⟩

/-- C17 (without ROI): the rows and columns of the cost volumes are all the points of the image at multiples of the step
from its first row and column. -/
theorem C17_coordinates_without_roi (hp : PairOk left right) (hs : 0 < cfg.subpix) (h1 : 1 ≤ cfg.stepRow)
    (h2 : 1 ≤ cfg.stepCol) (h : computeCostVolumes z pc cfg none left right margins = .ok cv) :
    IsGrid cv.row left.img.row0 left.img.row0 left.img.h cfg.stepRow ∧
    IsGrid cv.col left.img.col0 left.img.col0 left.img.w cfg.stepCol := by
  obtain ⟨e1, e2, -⟩ := compute_char hp hs h1 h
  rw [e1, e2, rowCoords_eq, colCoords_eq]
  exact ⟨arange_grid none _ _ _ h1, arange_grid none _ _ _ h2⟩

theorem roi_start (first margin c0 : Int) (n step : Nat) (hs : 1 ≤ step) (hf : 0 ≤ first) (hm : 0 ≤ margin)
    (h0 : c0 = max 0 (first - margin)) (hlt : first < c0 + n) :
    startCoord (some (min margin first)) c0 step ≤ first ∧
    (step : Int) ∣ first - startCoord (some (min margin first)) c0 step ∧
    ∃ k < (arangeA (startCoord (some (min margin first)) c0 step) (c0 + n) step).n,
      (arangeA (startCoord (some (min margin first)) c0 step) (c0 + n) step).get k = first := by
  have e : c0 + min margin first = first := by omega
  have hmod := Int.emod_add_mul_ediv (min margin first) step
  have hdiv : 0 ≤ min margin first / (step : Int) := Int.ediv_nonneg (by omega) (by omega)
  have hstart : startCoord (some (min margin first)) c0 step = first - step * (min margin first / (step : Int)) := by
    unfold startCoord
    simp only
    omega
  have hmul : 0 ≤ (step : Int) * (min margin first / (step : Int)) := by positivity
  refine ⟨by omega, ?_, (min margin first / (step : Int)).toNat, ?_, ?_⟩
  · rw [hstart]
    exact ⟨min margin first / (step : Int), by ring⟩
  · rw [arangeA_mem hs, Int.toNat_of_nonneg hdiv, hstart, Int.mul_comm]
    omega
  · unfold arangeA
    simp only
    rw [Int.toNat_of_nonneg hdiv, hstart, Int.mul_comm]
    omega

/-- C17 (with ROI): on the crop of the image by the ROI and its margins, rows and columns are progressions of the step
inside the crop which contain the first row and the first column of the ROI, for every margin (margins larger than the
distance to the image border included) and step. -/
theorem C17_coordinates_with_roi {R : Roi} {H W : Nat} (hp : PairOk left right) (hs : 0 < cfg.subpix)
    (h1 : 1 ≤ cfg.stepRow) (h2 : 1 ≤ cfg.stepCol) (hc : CropOk left.img R H W)
    (h : computeCostVolumes z pc cfg (some R) left right margins = .ok cv) :
    (∃ a, IsGrid cv.row a left.img.row0 left.img.h cfg.stepRow ∧ a ≤ R.rowFirst ∧
      (cfg.stepRow : Int) ∣ R.rowFirst - a ∧ ∃ k < cv.row.n, cv.row.get k = R.rowFirst) ∧
    (∃ a, IsGrid cv.col a left.img.col0 left.img.w cfg.stepCol ∧ a ≤ R.colFirst ∧
      (cfg.stepCol : Int) ∣ R.colFirst - a ∧ ∃ k < cv.col.n, cv.col.get k = R.colFirst) := by
  obtain ⟨e1, e2, -⟩ := compute_char hp hs h1 h
  rw [e1, e2, rowCoords_eq, colCoords_eq]
  obtain ⟨⟨r1, r2, r3⟩, ⟨c1, c2, c3⟩, ⟨m1, m2, m3, m4⟩, q1, q2, q3, q4⟩ := hc
  constructor
  · obtain ⟨a, b, c⟩ := roi_start R.rowFirst R.margins.up left.img.row0 left.img.h cfg.stepRow h1 r1 m2 q1 (by omega)
    exact ⟨_, arange_grid _ _ _ _ h1, a, b, c⟩
  · obtain ⟨a, b, c⟩ := roi_start R.colFirst R.margins.left left.img.col0 left.img.w cfg.stepCol h2 c1 m1 q2 (by omega)
    exact ⟨_, arange_grid _ _ _ _ h2, a, b, c⟩

/-- C19 composed with C17: on the coordinates computed for a ROI, removing the margins keeps exactly the computed points
inside the ROI; in particular its first point is kept. -/
theorem C19_after_matching_cost {β : Type} {R : Roi} {H W : Nat} (hp : PairOk left right) (hs : 0 < cfg.subpix)
    (h1 : 1 ≤ cfg.stepRow) (h2 : 1 ≤ cfg.stepCol) (hc : CropOk left.img R H W)
    (h : computeCostVolumes z pc cfg (some R) left right margins = .ok cv) (rowMap colMap score : Nat → Nat → β) :
    ∃ out, removeRoiMargins ⟨cv.row, cv.col, rowMap, colMap, score⟩ R cfg.stepRow cfg.stepCol = .ok out ∧
      out.row.toList = cv.row.toList.filter (fun y => R.rowFirst ≤ y ∧ y ≤ R.rowLast) ∧
      out.col.toList = cv.col.toList.filter (fun x => R.colFirst ≤ x ∧ x ≤ R.colLast) ∧
      R.rowFirst ∈ out.row.toList ∧ R.colFirst ∈ out.col.toList ∧
      ∀ r < out.row.n, ∀ c < out.col.n, ∃ r' < cv.row.n, ∃ c' < cv.col.n,
        out.row.get r = cv.row.get r' ∧ out.col.get c = cv.col.get c' ∧ out.rowMap r c = rowMap r' c' ∧
        out.colMap r c = colMap r' c' ∧ out.score r c = score r' c' := by
  obtain ⟨⟨a, ⟨pr, -, -⟩, ale, adv, kr, hkr, ekr⟩, ⟨b, ⟨pcg, -, -⟩, ble, bdv, kc, hkc, ekc⟩⟩ :=
    C17_coordinates_with_roi hp hs h1 h2 hc h
  obtain ⟨out, ho, x1, x2, x3⟩ := C19_roi_exactly (β := β) ⟨cv.row, cv.col, rowMap, colMap, score⟩ R cfg.stepRow
    cfg.stepCol a b h1 h2 (by show 0 < cv.row.n; omega) (by show 0 < cv.col.n; omega) pr pcg (fun _ => adv) (fun _ => bdv)
  refine ⟨out, ho, x1, x2, ?_, ?_, x3⟩
  · rw [x1, List.mem_filter]
    refine ⟨?_, by simp [hc.rows.2.1]⟩
    exact List.mem_map.2 ⟨kr, List.mem_range.2 hkr, ekr⟩
  · rw [x2, List.mem_filter]
    refine ⟨?_, by simp [hc.cols.2.1]⟩
    exact List.mem_map.2 ⟨kc, List.mem_range.2 hkc, ekc⟩

/-! ## Existence of the volumes -/

/-- All the masked cells exist in the volume: the cost volumes are computed. -/
theorem compute_exists_of (hp : PairOk left right) (hs : 0 < cfg.subpix) (h1 : 1 ≤ cfg.stepRow)
    (hrow : ∀ r < left.img.h, ∀ c < left.img.w,
      (¬ (r < (rowCoords roi left.img.row0 left.img.h cfg.stepRow).n ∧
          c < (Pandora.colCoordinates (colMargin roi) left.img.col0 left.img.w cfg.stepCol).n)) →
      (left.rowDisp.lo.get r c = left.rowDisp.src.1 ∧ left.rowDisp.hi.get r c = left.rowDisp.src.2) ∧
      (left.colDisp.lo.get r c = left.colDisp.src.1 ∧ left.colDisp.hi.get r c = left.colDisp.src.2)) :
    ∃ cv, computeCostVolumes z pc cfg roi left right margins = .ok cv := by
  obtain ⟨filled, ⟨n0, n1, n2, n3⟩, hf, e⟩ := compute_unfold z pc cfg roi left right margins hp hs h1
  have key : ∀ (d lo hi : K) (g0 g1 : K), lo = g0 → hi = g1 → Common.outMask d lo hi (some (g0, g1)) = false := by
    intro d lo hi g0 g1 e1 e2
    subst e1; subst e2
    simp only [Common.outMask, Bool.or_eq_false_iff, Bool.and_eq_false_iff, decide_eq_false_iff_not, not_lt, not_le]
    exact ⟨le_or_gt _ _, le_or_gt _ _⟩
  obtain ⟨m1, hm1, ⟨a0, a1, a2, a3⟩, -⟩ := Common.setOutOfRow_go (axisRow left margins cfg.subpix) (castG left.rowDisp.lo)
    (castG left.rowDisp.hi) .nan (castS left.rowDisp.src) filled.n3 filled (by
      rintro j - ⟨r, c⟩ hm
      rw [Common.mem_masking] at hm
      obtain ⟨⟨hr, hc⟩, hm⟩ := hm
      have hr' : r < left.img.h := lt_of_lt_of_eq hr hp.row.shape.1
      have hc' : c < left.img.w := lt_of_lt_of_eq hc hp.row.shape.2.1
      by_contra hno
      have hno' : ¬ (r < (rowCoords roi left.img.row0 left.img.h cfg.stepRow).n ∧
          c < (Pandora.colCoordinates (colMargin roi) left.img.col0 left.img.w cfg.stepCol).n) := by
        rw [← n0, ← n1]; exact hno
      obtain ⟨⟨e1, e2⟩, -⟩ := hrow r hr' c hc' hno'
      have : Common.outMask ((axisRow left margins cfg.subpix).get j) ((left.rowDisp.lo.get r c : Int) : K)
          ((left.rowDisp.hi.get r c : Int) : K) (some ((left.rowDisp.src.1 : K), (left.rowDisp.src.2 : K))) = false :=
        key _ _ _ _ _ (by rw [e1]) (by rw [e2])
      have hm' : Common.outMask ((axisRow left margins cfg.subpix).get j) ((left.rowDisp.lo.get r c : Int) : K)
          ((left.rowDisp.hi.get r c : Int) : K) (some ((left.rowDisp.src.1 : K), (left.rowDisp.src.2 : K))) = true := hm
      rw [this] at hm'
      simp at hm')
  obtain ⟨m2, hm2, -⟩ := Common.setOutOfCol_go (axisCol left margins cfg.subpix) (castG left.colDisp.lo)
    (castG left.colDisp.hi) .nan (castS left.colDisp.src) m1.n2 m1 (by
      rintro j - ⟨r, c⟩ hm
      rw [Common.mem_masking] at hm
      obtain ⟨⟨hr, hc⟩, hm⟩ := hm
      have hr' : r < left.img.h := lt_of_lt_of_eq hr hp.col.shape.1
      have hc' : c < left.img.w := lt_of_lt_of_eq hc hp.col.shape.2.1
      by_contra hno
      have hno' : ¬ (r < (rowCoords roi left.img.row0 left.img.h cfg.stepRow).n ∧
          c < (Pandora.colCoordinates (colMargin roi) left.img.col0 left.img.w cfg.stepCol).n) := by
        rw [← n0, ← n1, ← a0, ← a1]; exact hno
      obtain ⟨-, ⟨e1, e2⟩⟩ := hrow r hr' c hc' hno'
      have : Common.outMask ((axisCol left margins cfg.subpix).get j) ((left.colDisp.lo.get r c : Int) : K)
          ((left.colDisp.hi.get r c : Int) : K) (some ((left.colDisp.src.1 : K), (left.colDisp.src.2 : K))) = false :=
        key _ _ _ _ _ (by rw [e1]) (by rw [e2])
      have hm' : Common.outMask ((axisCol left margins cfg.subpix).get j) ((left.colDisp.lo.get r c : Int) : K)
          ((left.colDisp.hi.get r c : Int) : K) (some ((left.colDisp.src.1 : K), (left.colDisp.src.2 : K))) = true := hm
      rw [this] at hm'
      simp at hm')
  rw [e]
  have hm1' : Common.setOutOfRow filled (axisRow left margins cfg.subpix) (castG left.rowDisp.lo)
      (castG left.rowDisp.hi) .nan (castS left.rowDisp.src) = .ok m1 := hm1
  have hm2' : Common.setOutOfCol m1 (axisCol left margins cfg.subpix) (castG left.colDisp.lo)
      (castG left.colDisp.hi) .nan (castS left.colDisp.src) = .ok m2 := hm2
  rw [hm1']
  simp only [bind, Except.bind]
  rw [hm2']
  exact ⟨_, rfl⟩

theorem coords_step_one (m : Option Int) (c0 : Int) (n : Nat) :
    (arangeA (startCoord m c0 1) (c0 + n) 1).n = n ∧ ∀ k, (arangeA (startCoord m c0 1) (c0 + n) 1).get k = c0 + k := by
  have e : startCoord m c0 1 = c0 := by
    unfold startCoord
    cases m with
    | none => rfl
    | some m => simp only; omega
  rw [e]
  constructor
  · have h1 : ∀ k, k < (arangeA c0 (c0 + n) 1).n ↔ k < n := by
      intro k
      rw [arangeA_mem (le_refl 1)]
      omega
    have := h1 n
    have h2 := h1 ((arangeA c0 (c0 + n) 1).n)
    by_contra hne
    rcases Nat.lt_or_gt_of_ne hne with h | h
    · exact absurd (h2.2 h) (lt_irrefl _)
    · exact absurd (this.1 h) (lt_irrefl _)
  · intro k
    simp [arangeA]

/-- With a step of one in both directions the cost volumes are always computed. -/
theorem volumes_exist_step_one (hp : PairOk left right) (hs : 0 < cfg.subpix) (h1 : cfg.stepRow = 1)
    (h2 : cfg.stepCol = 1) : ∃ cv, computeCostVolumes z pc cfg roi left right margins = .ok cv := by
  apply compute_exists_of hp hs (by omega)
  intro r hr c hc hno
  rw [rowCoords_eq, colCoords_eq, h1, h2, (coords_step_one _ _ _).1, (coords_step_one _ _ _).1] at hno
  exact absurd ⟨hr, hc⟩ hno

/-- With constant disparities the cost volumes are computed for every step. -/
theorem volumes_exist_constant (hp : PairOk left right) (hs : 0 < cfg.subpix) (h1 : 1 ≤ cfg.stepRow)
    (hr : ∀ r < left.img.h, ∀ c < left.img.w, left.rowDisp.lo.get r c = left.rowDisp.src.1 ∧
      left.rowDisp.hi.get r c = left.rowDisp.src.2)
    (hc : ∀ r < left.img.h, ∀ c < left.img.w, left.colDisp.lo.get r c = left.colDisp.src.1 ∧
      left.colDisp.hi.get r c = left.colDisp.src.2) :
    ∃ cv, computeCostVolumes z pc cfg roi left right margins = .ok cv :=
  compute_exists_of hp hs h1 (fun r h c h' _ => ⟨hr r h c h', hc r h c h'⟩)

/-! ## C16 — content of the cells -/

theorem axis_multiple {a : Arr1 K} {lo hi : Int} {ml mr s : Nat} (hs : 0 < s) (ha : IsAxis a lo hi ml mr s) {i : Nat}
    (hi' : i < a.n) : ∃ k : Int, a.get i * s = k := by
  have hs' : (s : K) ≠ 0 := by positivity
  refine ⟨(lo - ml) * s + i, ?_⟩
  rw [axis_mul hs ha hi']
  field_simp

theorem maskedBy_iff {M : MinMax} {h w r c : Nat} (hM : RangesOk M h w) (hr : r < h) (hc : c < w) (d : K) :
    MaskedBy M r c d ↔ Outside d (M.lo.get r c : K) (M.hi.get r c : K) ∧ (M.src.1 : K) ≤ d ∧ d ≤ (M.src.2 : K) := by
  unfold MaskedBy
  have hw : Within (M.lo.get r c : K) (M.hi.get r c : K) (some ((M.src.1 : K), (M.src.2 : K))) := by
    have h1 := hM.inside r hr c hc
    have h2 := hM.ordered r hr c hc
    refine ⟨?_, ?_, ?_, ?_⟩ <;> norm_cast <;> omega
  rw [outMask_iff _ _ _ _ hw]
  have hs := hM.shape
  constructor
  · exact fun h => h.2
  · exact fun h => ⟨⟨by omega, by omega⟩, h⟩

/-- C16 (any step): a cell of the volumes is NaN or the Pandora cost of the left pixel at the row and column coordinates of
the cell, with the right image sampled exactly `dr` rows away (`dr` the row disparity of the cell), at the column disparity
of the cell. -/
theorem C16_cell_any_step (hp : PairOk left right) (hs : 0 < cfg.subpix) (h1 : 1 ≤ cfg.stepRow)
    (h : computeCostVolumes zoomLinear pc cfg roi left right margins = .ok cv)
    {r c i j : Nat} (hr : r < cv.row.n) (hc : c < cv.col.n) (hi : i < cv.dispCol.n) (hj : j < cv.dispRow.n) :
    ∃ displaced, SamplesAt displaced right (cv.dispRow.get j) ∧
      (cv.data r c i j = .nan ∨
       cv.data r c i j = pc left.img displaced (widened left.colDisp.lo (-((mgD margins).left : Int)))
          (widened left.colDisp.hi (mgD margins).right) (cv.row.get r - left.img.row0).toNat
          (cv.col.get c - left.img.col0).toNat (cv.dispCol.get i)) := by
  obtain ⟨-, -, -, e4, -, -, -, hd⟩ := compute_char hp hs h1 h
  refine ⟨slabImg zoomLinear right cfg.subpix (cv.dispRow.get j), ?_, ?_⟩
  · apply slab_samples right cfg.subpix hs
    rw [e4] at hj ⊢
    exact axis_multiple hs (axisRow_spec hp margins hs) hj
  · rw [hd r hr c hc i hi j hj]
    split_ifs
    · exact Or.inl rfl
    · exact Or.inr rfl

open Classical in
/-- C16 (step 1): with a step of one, the cell of pixel `(r, c)` and disparities `(dc, dr)` is NaN when one of the
disparities is outside the range of this pixel (and inside the global range: margins are kept), and otherwise the Pandora
cost of the left pixel `(r, c)` with the right image sampled `dr` rows away, at the column disparity `dc`. -/
theorem C16_cell_step_one (hp : PairOk left right) (hs : 0 < cfg.subpix) (h1 : cfg.stepRow = 1) (h2 : cfg.stepCol = 1)
    (h : computeCostVolumes zoomLinear pc cfg roi left right margins = .ok cv) :
    cv.row.n = left.img.h ∧ cv.col.n = left.img.w ∧
    ∀ r < left.img.h, ∀ c < left.img.w, ∀ i < cv.dispCol.n, ∀ j < cv.dispRow.n,
      (cv.row.get r = left.img.row0 + r ∧ cv.col.get c = left.img.col0 + c) ∧
      ∃ displaced, SamplesAt displaced right (cv.dispRow.get j) ∧
        cv.data r c i j =
          if (Outside (cv.dispRow.get j) (left.rowDisp.lo.get r c : K) (left.rowDisp.hi.get r c : K) ∧
                (left.rowDisp.src.1 : K) ≤ cv.dispRow.get j ∧ cv.dispRow.get j ≤ (left.rowDisp.src.2 : K)) ∨
             (Outside (cv.dispCol.get i) (left.colDisp.lo.get r c : K) (left.colDisp.hi.get r c : K) ∧
                (left.colDisp.src.1 : K) ≤ cv.dispCol.get i ∧ cv.dispCol.get i ≤ (left.colDisp.src.2 : K))
          then .nan
          else pc left.img displaced (widened left.colDisp.lo (-((mgD margins).left : Int)))
            (widened left.colDisp.hi (mgD margins).right) r c (cv.dispCol.get i) := by
  obtain ⟨e1, e2, -, e4, -, -, -, hd⟩ := compute_char hp hs (by omega) h
  rw [rowCoords_eq, h1] at e1
  rw [colCoords_eq, h2] at e2
  obtain ⟨n1, g1⟩ := coords_step_one (rowMargin roi) left.img.row0 left.img.h
  obtain ⟨n2, g2⟩ := coords_step_one (colMargin roi) left.img.col0 left.img.w
  have hn1 : cv.row.n = left.img.h := by rw [e1, n1]
  have hn2 : cv.col.n = left.img.w := by rw [e2, n2]
  refine ⟨hn1, hn2, fun r hr c hc i hi j hj => ?_⟩
  have hrow : cv.row.get r = left.img.row0 + r := by rw [e1]; exact g1 r
  have hcol : cv.col.get c = left.img.col0 + c := by rw [e2]; exact g2 c
  refine ⟨⟨hrow, hcol⟩, slabImg zoomLinear right cfg.subpix (cv.dispRow.get j), ?_, ?_⟩
  · apply slab_samples right cfg.subpix hs
    rw [e4] at hj ⊢
    exact axis_multiple hs (axisRow_spec hp margins hs) hj
  · rw [hd r (by omega) c (by omega) i hi j hj, hrow, hcol,
      show (left.img.row0 + (r : Int) - left.img.row0).toNat = r by omega,
      show (left.img.col0 + (c : Int) - left.img.col0).toNat = c by omega]
    apply if_congr _ rfl rfl
    rw [maskedBy_iff hp.row hr hc, maskedBy_iff hp.col hr hc]

/-- C16 (constant disparities, any step): every cell is the Pandora cost of the left pixel at the coordinates of the cell
with the displaced right image. -/
theorem C16_cell_constant (hp : PairOk left right) (hs : 0 < cfg.subpix) (h1 : 1 ≤ cfg.stepRow)
    (hrc : ∀ r < left.img.h, ∀ c < left.img.w, left.rowDisp.lo.get r c = left.rowDisp.src.1 ∧
      left.rowDisp.hi.get r c = left.rowDisp.src.2)
    (hcc : ∀ r < left.img.h, ∀ c < left.img.w, left.colDisp.lo.get r c = left.colDisp.src.1 ∧
      left.colDisp.hi.get r c = left.colDisp.src.2)
    (h : computeCostVolumes zoomLinear pc cfg roi left right margins = .ok cv)
    {r c i j : Nat} (hr : r < cv.row.n) (hc : c < cv.col.n) (hi : i < cv.dispCol.n) (hj : j < cv.dispRow.n) :
    ∃ displaced, SamplesAt displaced right (cv.dispRow.get j) ∧
      cv.data r c i j = pc left.img displaced (widened left.colDisp.lo (-((mgD margins).left : Int)))
          (widened left.colDisp.hi (mgD margins).right) (cv.row.get r - left.img.row0).toNat
          (cv.col.get c - left.img.col0).toNat (cv.dispCol.get i) := by
  obtain ⟨-, -, -, e4, -, -, -, hd⟩ := compute_char hp hs h1 h
  refine ⟨slabImg zoomLinear right cfg.subpix (cv.dispRow.get j), ?_, ?_⟩
  · apply slab_samples right cfg.subpix hs
    rw [e4] at hj ⊢
    exact axis_multiple hs (axisRow_spec hp margins hs) hj
  · rw [hd r hr c hc i hi j hj, if_neg]
    have key : ∀ (M : MinMax) (d : K), RangesOk M left.img.h left.img.w →
        (∀ r < left.img.h, ∀ c < left.img.w, M.lo.get r c = M.src.1 ∧ M.hi.get r c = M.src.2) →
        ¬ MaskedBy M r c d := by
      intro M d hM hcst hmk
      have hb := hmk.1
      rw [hM.shape.1, hM.shape.2.1] at hb
      rw [maskedBy_iff hM hb.1 hb.2] at hmk
      obtain ⟨e1, e2⟩ := hcst r hb.1 c hb.2
      rw [e1, e2] at hmk
      exact hmk.1 hmk.2
    rintro (hmk | hmk)
    · exact key _ _ hp.row hrc hmk
    · exact key _ _ hp.col hcc hmk

/-- C16 (missing right pixel): when the displaced row `r + dr` or the displaced column `c + dc` is outside the right
image, the cell is NaN. -/
theorem C16_nan_when_outside (hpc : CostContract pc) (hp : PairOk left right) (hs : 0 < cfg.subpix)
    (h1 : 1 ≤ cfg.stepRow) (hnd : right.noData ≠ .nan)
    (h : computeCostVolumes zoomLinear pc cfg roi left right margins = .ok cv)
    {r c i j : Nat} (hr : r < cv.row.n) (hc : c < cv.col.n) (hi : i < cv.dispCol.n) (hj : j < cv.dispRow.n)
    (hout : ((cv.row.get r - left.img.row0 : Int) : K) + cv.dispRow.get j < 0 ∨
      ((right.h - 1 : Nat) : K) < ((cv.row.get r - left.img.row0 : Int) : K) + cv.dispRow.get j ∨
      (((cv.col.get c - left.img.col0).toNat : K) + cv.dispCol.get i < 0) ∨
      ((right.w - 1 : Nat) : K) < ((cv.col.get c - left.img.col0).toNat : K) + cv.dispCol.get i) :
    cv.data r c i j = .nan := by
  obtain ⟨e1, -, -, e4, -, -, -, hd⟩ := compute_char hp hs h1 h
  rw [hd r hr c hc i hi j hj]
  split_ifs
  · rfl
  · have hw : (slabImg zoomLinear right cfg.subpix (cv.dispRow.get j)).w = right.w := by
      unfold slabImg shiftDispRow zoomed; simp only; split <;> rfl
    have hh : (zoomed zoomLinear right cfg.subpix (iRight (cv.dispRow.get j) cfg.subpix)).h = right.h := by
      unfold zoomed; split <;> rfl
    have hnn : (zoomed zoomLinear right cfg.subpix (iRight (cv.dispRow.get j) cfg.subpix)).noData = right.noData := by
      unfold zoomed; split <;> rfl
    have hrowin : 0 ≤ cv.row.get r - left.img.row0 ∧ cv.row.get r - left.img.row0 < left.img.h := by
      rw [e1, rowCoords_eq] at hr ⊢
      exact coords_in _ _ _ _ h1 hr
    have hcast : (((cv.row.get r - left.img.row0).toNat : Nat) : K) = ((cv.row.get r - left.img.row0 : Int) : K) := by
      have : ((((cv.row.get r - left.img.row0).toNat : Nat) : Int) : K) = ((cv.row.get r - left.img.row0 : Int) : K) := by
        rw [Int.toNat_of_nonneg hrowin.1]
      rw [← this, Int.cast_natCast]
    have hrowcase : (((cv.row.get r - left.img.row0).toNat : Nat) : K) + cv.dispRow.get j < 0 ∨
        ((right.h - 1 : Nat) : K) < (((cv.row.get r - left.img.row0).toNat : Nat) : K) + cv.dispRow.get j →
        pc left.img (slabImg zoomLinear right cfg.subpix (cv.dispRow.get j))
          (widened left.colDisp.lo (-((mgD margins).left : Int))) (widened left.colDisp.hi (mgD margins).right)
          (cv.row.get r - left.img.row0).toNat (cv.col.get c - left.img.col0).toNat (cv.dispCol.get i) = .nan := by
      intro hout
      apply hpc.rowNoData
      intro x hx
      rw [hw] at hx
      have hsm : SamplesAt (slabImg zoomLinear right cfg.subpix (cv.dispRow.get j)) right (cv.dispRow.get j) := by
        apply slab_samples right cfg.subpix hs
        rw [e4] at hj ⊢
        exact axis_multiple hs (axisRow_spec hp margins hs) hj
      have hnod := (hsm (cv.row.get r - left.img.row0).toNat (by rw [hp.sameH]; omega) x hx).2 hout
      have hget : Pandora.noDataAt (slabImg zoomLinear right cfg.subpix (cv.dispRow.get j))
          (cv.row.get r - left.img.row0).toNat x = true := by
        have hval : (slabImg zoomLinear right cfg.subpix (cv.dispRow.get j)).im (cv.row.get r - left.img.row0).toNat x
            = right.noData := hnod
        unfold slabImg at hval ⊢
        set Z := zoomed zoomLinear right cfg.subpix (iRight (cv.dispRow.get j) cfg.subpix) with hZ
        have hsp := (C14_row_shift Z ⌊cv.dispRow.get j⌋)
        obtain ⟨-, -, m, hm, hmm⟩ := hsp
        have hzw : Z.w = right.w := by rw [hZ]; unfold zoomed; split <;> rfl
        have := (hmm (cv.row.get r - left.img.row0).toNat (by rw [hh, hp.sameH]; omega) x (by rw [hzw]; exact hx)).1
        unfold Pandora.noDataAt
        rw [hm]
        simp only [decide_eq_true_eq]
        apply this.2
        rw [hval, hnn]
        cases hv : right.noData <;> simp_all [F.eq]
      exact hget
    rcases hout with ho | ho | ho | ho
    · exact hrowcase (Or.inl (by rw [hcast]; exact ho))
    · exact hrowcase (Or.inr (by rw [hcast]; exact ho))
    · exact hpc.colOut _ _ _ _ _ _ _ (Or.inl ho)
    · exact hpc.colOut _ _ _ _ _ _ _ (Or.inr (by rw [hw]; exact ho))

end

end Verif.Props
