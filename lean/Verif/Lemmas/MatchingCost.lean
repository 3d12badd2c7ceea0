import Verif.Lemmas.ImgTools
import Verif.Lemmas.Common
import Verif.Spec.MatchingCost

/-! Lemmas on the matching cost step. -/

set_option linter.unusedSectionVars false

namespace Verif.Common
open Verif
variable {K : Type} [LinearOrder K] {α : Type}

theorem setCol_error (dispCol : Arr1 K) (gmin gmax : Arr2 K) (value : α) (g : Option (K × K)) (n : Nat) :
    ∀ (data : Arr4 α), (∃ j < n, ∃ p ∈ masking (dispCol.get j) gmin gmax g, ¬ (p.1 < data.n0 ∧ p.2 < data.n1)) →
    (List.range n).foldlM (setColStep dispCol gmin gmax value g) data = .error .indexError := by
  induction n with
  | zero => rintro data ⟨j, hj, _⟩; omega
  | succ n ih =>
    intro data hex
    rw [List.range_succ, List.foldlM_append]
    by_cases hprev : ∃ j < n, ∃ p ∈ masking (dispCol.get j) gmin gmax g, ¬ (p.1 < data.n0 ∧ p.2 < data.n1)
    · rw [ih data hprev]; rfl
    · push Not at hprev
      obtain ⟨d1, h1, ⟨e0, e1, -, -⟩, -⟩ := setOutOfCol_go dispCol gmin gmax value g n data
        (fun j hj p hp => by
          have := hprev j hj p hp
          exact this)
      rw [h1]
      simp only [bind, Except.bind, List.foldlM_cons, List.foldlM_nil]
      obtain ⟨j, hj, p, hp, hnot⟩ := hex
      have hjn : j = n := by
        by_contra hne
        exact hnot (hprev j (by omega) p hp)
      subst hjn
      have hall : ¬ (((masking (dispCol.get j) gmin gmax g).all
          fun p => decide (p.1 < d1.n0) && decide (p.2 < d1.n1)) = true) := by
        rw [List.all_eq_true]
        intro h
        have := h p hp
        simp [e0, e1] at this
        exact hnot this
      unfold setColStep
      simp only [if_neg hall]

/-- Any successful masking by rows has the pointwise effect. -/
theorem setOutOfRow_ok {data out : Arr4 α} {dispRow : Arr1 K} {gmin gmax : Arr2 K} {value : α} {g : Option (K × K)}
    (h : setOutOfRow data dispRow gmin gmax value g = .ok out) :
    (out.n0 = data.n0 ∧ out.n1 = data.n1 ∧ out.n2 = data.n2 ∧ out.n3 = data.n3) ∧
    ∀ r c i j, out.get r c i j =
        if j < data.n3 ∧ (r, c) ∈ masking (dispRow.get j) gmin gmax g then value else data.get r c i j := by
  by_cases hex : ∃ j < data.n3, ∃ p ∈ masking (dispRow.get j) gmin gmax g, ¬ (p.1 < data.n0 ∧ p.2 < data.n1)
  · unfold setOutOfRow at h
    rw [setRow_error dispRow gmin gmax value g data.n3 data hex] at h
    simp at h
  · push Not at hex
    obtain ⟨o, ho, hs, hp⟩ := setOutOfRow_go dispRow gmin gmax value g data.n3 data (fun j hj p hp => hex j hj p hp)
    unfold setOutOfRow at h
    rw [ho] at h
    simp only [Except.ok.injEq] at h
    subst h
    exact ⟨hs, hp⟩

/-- Any successful masking by columns has the pointwise effect. -/
theorem setOutOfCol_ok {data out : Arr4 α} {dispCol : Arr1 K} {gmin gmax : Arr2 K} {value : α} {g : Option (K × K)}
    (h : setOutOfCol data dispCol gmin gmax value g = .ok out) :
    (out.n0 = data.n0 ∧ out.n1 = data.n1 ∧ out.n2 = data.n2 ∧ out.n3 = data.n3) ∧
    ∀ r c i j, out.get r c i j =
        if i < data.n2 ∧ (r, c) ∈ masking (dispCol.get i) gmin gmax g then value else data.get r c i j := by
  by_cases hex : ∃ j < data.n2, ∃ p ∈ masking (dispCol.get j) gmin gmax g, ¬ (p.1 < data.n0 ∧ p.2 < data.n1)
  · unfold setOutOfCol at h
    rw [setCol_error dispCol gmin gmax value g data.n2 data hex] at h
    simp at h
  · push Not at hex
    obtain ⟨o, ho, hs, hp⟩ := setOutOfCol_go dispCol gmin gmax value g data.n2 data (fun j hj p hp => hex j hj p hp)
    unfold setOutOfCol at h
    rw [ho] at h
    simp only [Except.ok.injEq] at h
    subst h
    exact ⟨hs, hp⟩

end Verif.Common

namespace Verif.MatchingCost
open Verif Verif.ImgTools Verif.Disparity Verif.Spec

variable {K : Type} [Field K] [LinearOrder K] [IsStrictOrderedRing K] [FloorRing K]

/-! ### Subpixel decomposition -/

theorem floor_div (k : Int) (s : Nat) : ⌊(k : K) / (s : K)⌋ = k / (s : Int) := by
  rw [Int.floor_div_natCast, Int.floor_intCast]

theorem fract_mul (k : Int) (s : Nat) (hs : 0 < s) :
    Int.fract ((k : K) / (s : K)) * (s : K) = ((k % (s : Int) : Int) : K) := by
  have hs' : (s : K) ≠ 0 := by positivity
  unfold Int.fract
  rw [floor_div, sub_mul, div_mul_cancel₀ _ hs']
  have := Int.emod_add_mul_ediv k s
  have h2 : (k : K) = ((k % (s : Int) : Int) : K) + (s : K) * ((k / (s : Int) : Int) : K) := by
    conv_lhs => rw [← this]
    push_cast
    rfl
  rw [h2]
  ring

theorem iRight_eq (k : Int) (s : Nat) (hs : 0 < s) : iRight ((k : K) / (s : K)) s = (k % (s : Int)).toNat := by
  unfold iRight
  rw [fract_mul k s hs, Int.floor_intCast]

/-! ### Resampled images -/

theorem mapM_ok {α β : Type} (f : α → Except Err β) (g : α → β) (l : List α) (h : ∀ x ∈ l, f x = .ok (g x)) :
    l.mapM f = .ok (l.map g) := by
  induction l with
  | nil => rfl
  | cons x l ih =>
    rw [List.mapM_cons, h x (by simp), ih (fun y hy => h y (by simp [hy]))]
    rfl

/-- The image resampled by `ind / s`. -/
def zoomed (z : Zoom K) (img : Img K) (s ind : Nat) : Img K :=
  if ind = 0 then img else { img with
    im := fun t c => if t < img.h - 1 then z img s (ind + t * s) c else img.noData
    msk := none }

theorem shiftSubpix_ok (z : Zoom K) (img : Img K) (s : Nat) (hh : 0 < img.h) :
    ∃ l, shiftSubpix z img s = .ok l ∧ ∀ i < s, l[i]? = some (zoomed z img s i) := by
  unfold shiftSubpix
  rw [mapM_ok (fun k => rowZoom z img s (k + 1)) (fun k => zoomed z img s (k + 1))]
  · refine ⟨_, rfl, ?_⟩
    intro i hi
    rcases i with _ | i
    · rfl
    · rw [List.getElem?_cons_succ, List.getElem?_map, List.getElem?_range (by omega)]
      rfl
  · intro k hk
    rw [List.mem_range] at hk
    unfold rowZoom zoomed
    simp only
    rw [zoomCount_eq hh (by omega) (by omega), if_pos (by omega), if_neg (by omega)]

/-! ### Disparity axes -/

theorem disparityRange_axis (lo hi : Int) (s : Nat) (hs : 0 < s) (hle : lo ≤ hi) :
    (Pandora.disparityRange lo hi s : Arr1 K).n = (hi - lo).toNat * s + 1 ∧
    ∀ i < (hi - lo).toNat * s + 1, (Pandora.disparityRange lo hi s : Arr1 K).get i = (lo : K) + (i : K) / (s : K) := by
  have hs' : (s : K) ≠ 0 := by positivity
  unfold Pandora.disparityRange
  by_cases h1 : s = 1
  · subst h1
    rw [if_pos rfl]
    refine ⟨by simp only; omega, fun i _ => by simp⟩
  · rw [if_neg h1]
    have e : ((hi - lo) * (s : Int)).toNat = (hi - lo).toNat * s := by
      obtain ⟨n, hn⟩ := Int.eq_ofNat_of_zero_le (a := hi - lo) (by omega)
      rw [hn]
      norm_cast
    refine ⟨by simp only [e], fun i hi' => ?_⟩
    simp only [e]
    by_cases hlt : i < (hi - lo).toNat * s
    · rw [if_pos hlt]
    · rw [if_neg hlt]
      have hieq : i = (hi - lo).toNat * s := by omega
      rw [hieq]
      push_cast
      rw [mul_div_assoc, div_self hs', mul_one]
      have e2 : (((hi - lo).toNat : Int) : K) = ((hi - lo : Int) : K) := by
        rw [Int.toNat_of_nonneg (by omega)]
      rw [Int.cast_natCast] at e2
      rw [e2]
      push_cast
      ring

theorem minOf_shift (M : MinMax) (h w : Nat) (hM : RangesOk M h w) (d : Int) :
    minOf (gridVals (shiftGrid M.lo d)) = M.src.1 + d := by
  obtain ⟨⟨s1, s2, s3, s4⟩, -, hin, ⟨r, hr, c, hc, e⟩, -⟩ := hM
  apply minOf_unique
  · exact mem_gridVals.2 ⟨r, by simp only [shiftGrid]; omega, c, by simp only [shiftGrid]; omega, by
      simp only [shiftGrid]; omega⟩
  · intro x hx
    obtain ⟨r', hr', c', hc', e'⟩ := mem_gridVals.1 hx
    simp only [shiftGrid] at hr' hc' e'
    have := (hin r' (by omega) c' (by omega)).1
    omega

theorem maxOf_shift (M : MinMax) (h w : Nat) (hM : RangesOk M h w) (d : Int) :
    maxOf (gridVals (shiftGrid M.hi d)) = M.src.2 + d := by
  obtain ⟨⟨s1, s2, s3, s4⟩, -, hin, -, ⟨r, hr, c, hc, e⟩⟩ := hM
  apply maxOf_unique
  · exact mem_gridVals.2 ⟨r, by simp only [shiftGrid]; omega, c, by simp only [shiftGrid]; omega, by
      simp only [shiftGrid]; omega⟩
  · intro x hx
    obtain ⟨r', hr', c', hc', e'⟩ := mem_gridVals.1 hx
    simp only [shiftGrid] at hr' hc' e'
    have := (hin r' (by omega) c' (by omega)).2
    omega

/-! ### The loop over the row disparities -/

theorem slabLoop (pc : Pandora.Cost K) (left : Img K) (imgs : List (Img K)) (s : Nat) (gminC gmaxC : Arr2 Int)
    (rows cols : Arr1 Int) (dispsCol dispsRow : Arr1 K) (im : Nat → Img K)
    (hrows : ∀ r < rows.n, 0 ≤ rows.get r - left.row0 ∧ rows.get r - left.row0 < left.h) (n : Nat)
    (hn : ∀ j < n, imgs[iRight (dispsRow.get j) s]? = some (im j)) (data : Arr4 (F K)) :
    ∃ out, (List.range n).foldlM
        (slabStep pc left imgs s gminC gmaxC rows cols dispsCol dispsRow) data = .ok out ∧
      (out.n0 = data.n0 ∧ out.n1 = data.n1 ∧ out.n2 = data.n2 ∧ out.n3 = data.n3) ∧
      ∀ r < rows.n, ∀ c i j, out.get r c i j =
        if j < n then pc left (shiftDispRow (im j) ⌊dispsRow.get j⌋) gminC gmaxC (rows.get r - left.row0).toNat
          (cols.get c - left.col0).toNat (dispsCol.get i)
        else data.get r c i j := by
  induction n with
  | zero => exact ⟨data, rfl, ⟨rfl, rfl, rfl, rfl⟩, fun r _ c i j => by simp⟩
  | succ n ih =>
    obtain ⟨o, ho, ⟨e0, e1, e2, e3⟩, hp⟩ := ih (fun j hj => hn j (by omega))
    rw [List.range_succ, List.foldlM_append, ho]
    simp only [bind, Except.bind, List.foldlM_cons, List.foldlM_nil]
    have hall : ((List.range rows.n).all
        (fun r => decide (-(left.h : Int) ≤ rows.get r - left.row0 ∧ rows.get r - left.row0 < left.h))) = true := by
      rw [List.all_eq_true]
      intro r hr
      rw [List.mem_range] at hr
      rw [decide_eq_true_eq]
      have := hrows r hr
      omega
    unfold slabStep
    simp only [hn n (by omega), bind, Except.bind, pure, Except.pure, hall, if_true]
    refine ⟨_, rfl, ⟨e0, e1, e2, e3⟩, fun r hr c i j => ?_⟩
    simp only
    by_cases hj : j = n
    · subst hj
      have hnn : ¬ (rows.get r - left.row0 < 0) := by have := hrows r hr; omega
      have hlt : j < j + 1 := by omega
      simp only [if_true, hnn, hlt, if_false]
    · rw [if_neg hj, hp r hr c i j]
      by_cases hlt : j < n
      · rw [if_pos hlt, if_pos (by omega)]
      · rw [if_neg hlt, if_neg (by omega)]

/-! ### Coordinates -/

theorem arangeA_mem {start stop : Int} {step : Nat} (hs : 1 ≤ step) {k : Nat} :
    k < (arangeA start stop step).n ↔ start + (k : Int) * step < stop := by
  unfold arangeA
  simp only
  have hs' : (0 : Int) < step := by omega
  constructor
  · intro h
    have h1 : (k : Int) + 1 ≤ (stop - start + (step - 1 : Nat)) / (step : Int) := by omega
    rw [Int.le_ediv_iff_mul_le hs'] at h1
    have : ((k : Int) + 1) * step = k * step + step := by ring
    omega
  · intro h
    have h1 : (k : Int) + 1 ≤ (stop - start + (step - 1 : Nat)) / (step : Int) := by
      rw [Int.le_ediv_iff_mul_le hs']
      have : ((k : Int) + 1) * step = k * step + step := by ring
      omega
    omega

/-- First row / column of the volume. -/
def startCoord (margin : Option Int) (c0 : Int) (step : Nat) : Int :=
  match margin with
  | none => c0
  | some m => c0 + m % step

theorem rowCoords_eq (roi : Option Roi) (row0 : Int) (h step : Nat) :
    rowCoords roi row0 h step = arangeA (startCoord (rowMargin roi) row0 step) (row0 + h) step := by
  unfold rowCoords startCoord
  cases rowMargin roi <;> rfl

theorem colCoords_eq (m : Option Int) (c0 : Int) (n step : Nat) :
    Pandora.colCoordinates m c0 n step = arangeA (startCoord m c0 step) (c0 + n) step := by
  unfold Pandora.colCoordinates startCoord
  cases m <;> rfl

theorem startCoord_ge (m : Option Int) (c0 : Int) (step : Nat) (hs : 1 ≤ step) : c0 ≤ startCoord m c0 step := by
  unfold startCoord
  cases m with
  | none => simp
  | some m =>
    have := Int.emod_nonneg m (b := step) (by omega)
    simp only
    omega

theorem coords_in (m : Option Int) (c0 : Int) (n step : Nat) (hs : 1 ≤ step) {k : Nat}
    (hk : k < (arangeA (startCoord m c0 step) (c0 + n) step).n) :
    0 ≤ (arangeA (startCoord m c0 step) (c0 + n) step).get k - c0 ∧
      (arangeA (startCoord m c0 step) (c0 + n) step).get k - c0 < n := by
  have h1 := (arangeA_mem hs).1 hk
  have h2 := startCoord_ge m c0 step hs
  have h3 : 0 ≤ (k : Int) * step := by positivity
  unfold arangeA
  simp only
  omega

/-! ### The whole step -/

/-- Margins, zero when there are none. -/
def mgD (margins : Option Margins) : Margins := margins.getD ⟨0, 0, 0, 0⟩

/-- Conversion of a grid. -/
def castG (g : Arr2 Int) : Arr2 K := ⟨g.h, g.w, fun r c => (g.get r c : K)⟩

/-- Conversion of a source. -/
def castS (s : Int × Int) : Option (K × K) := some ((s.1 : K), (s.2 : K))

/-- Column disparity axis. -/
def axisCol (left : Left K) (margins : Option Margins) (s : Nat) : Arr1 K :=
  Pandora.disparityRange (left.colDisp.src.1 + -((mgD margins).left : Int)) (left.colDisp.src.2 + (mgD margins).right) s

/-- Row disparity axis. -/
def axisRow (left : Left K) (margins : Option Margins) (s : Nat) : Arr1 K :=
  Pandora.disparityRange (left.rowDisp.src.1 + -((mgD margins).up : Int)) (left.rowDisp.src.2 + (mgD margins).down) s

theorem src_le {M : MinMax} {h w : Nat} (hM : RangesOk M h w) : M.src.1 ≤ M.src.2 := by
  obtain ⟨r, hr, c, hc, e⟩ := hM.tightLo
  have h1 := hM.ordered r hr c hc
  have h2 := (hM.inside r hr c hc).2
  omega

theorem axisCol_spec {left : Left K} {right : Img K} (hp : PairOk left right) (margins : Option Margins) {s : Nat}
    (hs : 0 < s) : IsAxis (axisCol left margins s) left.colDisp.src.1 left.colDisp.src.2 (mgD margins).left
      (mgD margins).right s := by
  have hle := src_le hp.col
  obtain ⟨h1, h2⟩ := disparityRange_axis (K := K) (left.colDisp.src.1 + -((mgD margins).left : Int))
    (left.colDisp.src.2 + (mgD margins).right) s hs (by omega)
  have e : (left.colDisp.src.2 + ((mgD margins).right : Int)
      - (left.colDisp.src.1 + -((mgD margins).left : Int))).toNat =
      (left.colDisp.src.2 - left.colDisp.src.1).toNat + (mgD margins).left + (mgD margins).right := by omega
  rw [e] at h1 h2
  exact ⟨h1, fun i hi => by
    have hi' : i < ((left.colDisp.src.2 - left.colDisp.src.1).toNat + (mgD margins).left + (mgD margins).right) * s + 1 := by
      rw [← h1]; exact hi
    have := h2 i hi'
    rw [axisCol, this]
    push_cast
    ring⟩

theorem axisRow_spec {left : Left K} {right : Img K} (hp : PairOk left right) (margins : Option Margins) {s : Nat}
    (hs : 0 < s) : IsAxis (axisRow left margins s) left.rowDisp.src.1 left.rowDisp.src.2 (mgD margins).up
      (mgD margins).down s := by
  have hle := src_le hp.row
  obtain ⟨h1, h2⟩ := disparityRange_axis (K := K) (left.rowDisp.src.1 + -((mgD margins).up : Int))
    (left.rowDisp.src.2 + (mgD margins).down) s hs (by omega)
  have e : (left.rowDisp.src.2 + ((mgD margins).down : Int)
      - (left.rowDisp.src.1 + -((mgD margins).up : Int))).toNat =
      (left.rowDisp.src.2 - left.rowDisp.src.1).toNat + (mgD margins).up + (mgD margins).down := by omega
  rw [e] at h1 h2
  exact ⟨h1, fun i hi => by
    have hi' : i < ((left.rowDisp.src.2 - left.rowDisp.src.1).toNat + (mgD margins).up + (mgD margins).down) * s + 1 := by
      rw [← h1]; exact hi
    have := h2 i hi'
    rw [axisRow, this]
    push_cast
    ring⟩

/-- Every value of an axis is a multiple of `1 / s`. -/
theorem axis_mul {a : Arr1 K} {lo hi : Int} {ml mr s : Nat} (hs : 0 < s) (ha : IsAxis a lo hi ml mr s) {i : Nat}
    (hi' : i < a.n) : a.get i = (((lo - ml) * s + i : Int) : K) / (s : K) := by
  have hs' : (s : K) ≠ 0 := by positivity
  rw [ha.2 i hi']
  push_cast
  field_simp

/-- The right image used for the slab of row disparity `d`. -/
def slabImg (z : Zoom K) (right : Img K) (s : Nat) (d : K) : Img K := shiftDispRow (zoomed z right s (iRight d s)) ⌊d⌋

theorem compute_unfold (z : Zoom K) (pc : Pandora.Cost K) (cfg : Cfg) (roi : Option Roi) (left : Left K) (right : Img K)
    (margins : Option Margins) (hp : PairOk left right) (hs : 0 < cfg.subpix) (h1 : 1 ≤ cfg.stepRow) :
    ∃ filled : Arr4 (F K),
      (filled.n0 = (rowCoords roi left.img.row0 left.img.h cfg.stepRow).n ∧
       filled.n1 = (Pandora.colCoordinates (colMargin roi) left.img.col0 left.img.w cfg.stepCol).n ∧
       filled.n2 = (axisCol left margins cfg.subpix).n ∧ filled.n3 = (axisRow left margins cfg.subpix).n) ∧
      (∀ r < filled.n0, ∀ c i, ∀ j < filled.n3, filled.get r c i j =
        pc left.img (slabImg z right cfg.subpix ((axisRow left margins cfg.subpix).get j))
          (shiftGrid left.colDisp.lo (-((mgD margins).left : Int))) (shiftGrid left.colDisp.hi (mgD margins).right)
          ((rowCoords roi left.img.row0 left.img.h cfg.stepRow).get r - left.img.row0).toNat
          ((Pandora.colCoordinates (colMargin roi) left.img.col0 left.img.w cfg.stepCol).get c - left.img.col0).toNat
          ((axisCol left margins cfg.subpix).get i)) ∧
      computeCostVolumes z pc cfg roi left right margins = (do
        let m1 ← Common.setOutOfRow filled (axisRow left margins cfg.subpix) (castG left.rowDisp.lo)
          (castG left.rowDisp.hi) .nan (castS left.rowDisp.src)
        let m2 ← Common.setOutOfCol m1 (axisCol left margins cfg.subpix) (castG left.colDisp.lo)
          (castG left.colDisp.hi) .nan (castS left.colDisp.src)
        return {
          row := rowCoords roi left.img.row0 left.img.h cfg.stepRow
          col := Pandora.colCoordinates (colMargin roi) left.img.col0 left.img.w cfg.stepCol
          dispCol := axisCol left margins cfg.subpix
          dispRow := axisRow left margins cfg.subpix
          data := m2.get
          margins := margins
          subpixel := cfg.subpix
          measure := cfg.measure }) := by
  obtain ⟨imgs, himgs, hget⟩ := shiftSubpix_ok z right cfg.subpix (by rw [hp.sameH]; exact hp.hpos)
  have hax := axisRow_spec hp margins hs
  have hrows : ∀ r < (rowCoords roi left.img.row0 left.img.h cfg.stepRow).n,
      0 ≤ (rowCoords roi left.img.row0 left.img.h cfg.stepRow).get r - left.img.row0 ∧
      (rowCoords roi left.img.row0 left.img.h cfg.stepRow).get r - left.img.row0 < left.img.h := by
    rw [rowCoords_eq]
    exact fun r hr => coords_in _ _ _ _ h1 hr
  obtain ⟨filled, hf, hsz, hpt⟩ := slabLoop pc left.img imgs cfg.subpix
    (shiftGrid left.colDisp.lo (-((mgD margins).left : Int))) (shiftGrid left.colDisp.hi (mgD margins).right)
    (rowCoords roi left.img.row0 left.img.h cfg.stepRow)
    (Pandora.colCoordinates (colMargin roi) left.img.col0 left.img.w cfg.stepCol)
    (axisCol left margins cfg.subpix) (axisRow left margins cfg.subpix)
    (fun j => zoomed z right cfg.subpix (iRight ((axisRow left margins cfg.subpix).get j) cfg.subpix)) hrows
    (axisRow left margins cfg.subpix).n
    (fun j hj => by
      apply hget
      rw [axis_mul hs hax hj, iRight_eq _ _ hs]
      have a := Int.emod_lt_of_pos ((left.rowDisp.src.1 - ((mgD margins).up : Int)) * cfg.subpix + j)
        (b := cfg.subpix) (by omega)
      omega)
    ⟨(rowCoords roi left.img.row0 left.img.h cfg.stepRow).n,
      (Pandora.colCoordinates (colMargin roi) left.img.col0 left.img.w cfg.stepCol).n,
      (axisCol left margins cfg.subpix).n, (axisRow left margins cfg.subpix).n, fun _ _ _ _ => .fin 0⟩
  refine ⟨filled, hsz, ?_, ?_⟩
  · intro r hr c i j hj
    rw [hpt r (lt_of_lt_of_eq hr hsz.1) c i j, if_pos (lt_of_lt_of_eq hj hsz.2.2.2)]
    rfl
  · unfold computeCostVolumes
    have e1 := minOf_shift left.rowDisp _ _ hp.row (-((mgD margins).up : Int))
    have e2 := maxOf_shift left.rowDisp _ _ hp.row ((mgD margins).down : Int)
    have e3 := minOf_shift left.colDisp _ _ hp.col (-((mgD margins).left : Int))
    have e4 := maxOf_shift left.colDisp _ _ hp.col ((mgD margins).right : Int)
    unfold mgD at e1 e2 e3 e4
    have hn : (axisRow left margins cfg.subpix).n ≠ 0 := by
      rw [hax.1]; omega
    simp only [Pandora.minMaxFromGrid, e1, e2, e3, e4, himgs, bind, Except.bind]
    unfold axisRow axisCol at hf
    unfold axisRow at hn
    unfold mgD at hf hn
    simp only [hn, if_false, hf, pure, Except.pure]
    rfl

end Verif.MatchingCost
