import Verif.Props.OwnRange

/-!
# Property C04 after the matching cost: the disparities examined are those of the user's range
-/

set_option linter.unusedSectionVars false

namespace Verif.Props

open Verif Verif.ImgTools Verif.MatchingCost Verif.Spec Verif.Disparity

variable {K : Type} [Field K] [LinearOrder K] [IsStrictOrderedRing K] [FloorRing K]
variable {z : Zoom K} {pc : Pandora.Cost K} {cfg : Cfg} {roi : Option Roi} {left : Left K} {right : Img K}
  {margins : Option Margins} {cv : CostVolumes K}

/-- All the values of an axis without margins are in the range. -/
theorem axis_in_range {a : Arr1 K} {lo hi : Int} {s : Nat} (hs : 0 < s) (hle : lo ≤ hi) (h : IsAxis a lo hi 0 0 s) {i : Nat} (hi' : i < a.n) :
    (lo : K) ≤ a.get i ∧ a.get i ≤ (hi : K) := by
  obtain ⟨h1, h2⟩ := h
  have hsK : (0 : K) < (s : K) := by exact_mod_cast hs
  rw [h2 i hi']
  push_cast
  constructor
  · have : (0 : K) ≤ (i : K) / (s : K) := by positivity
    linarith
  · have hn : i ≤ (hi - lo).toNat * s := by rw [h1] at hi'; simpa using Nat.lt_succ_iff.1 hi'
    have h3 : (i : K) / (s : K) ≤ ((hi - lo).toNat : K) := by
      rw [div_le_iff₀ hsK]
      exact_mod_cast hn
    have h4 : ((hi - lo).toNat : K) = (hi : K) - (lo : K) := by
      have : (((hi - lo).toNat : Int) : K) = ((hi - lo : Int) : K) := by rw [Int.toNat_of_nonneg (by omega)]
      push_cast at this
      exact this
    rw [h4] at h3
    linarith

/-- The examined indices after the matching cost. -/
theorem examined_iff (hp : PairOk left right) (hs : 0 < cfg.subpix) (h1 : 1 ≤ cfg.stepRow)
    (h : computeCostVolumes z pc cfg roi left right margins = .ok cv) :
    (∀ i < cv.dispCol.n, UserCol cv i ↔ (left.colDisp.src.1 : K) ≤ cv.dispCol.get i ∧ cv.dispCol.get i ≤ (left.colDisp.src.2 : K)) ∧
    (∀ j < cv.dispRow.n, UserRow cv j ↔ (left.rowDisp.src.1 : K) ≤ cv.dispRow.get j ∧ cv.dispRow.get j ≤ (left.rowDisp.src.2 : K)) := by
  obtain ⟨-, -, e1, e2, e3, e4, -⟩ := compute_char hp hs h1 h
  have a1 := axisCol_spec hp margins hs
  have a2 := axisRow_spec hp margins hs
  rw [← e1] at a1
  rw [← e2] at a2
  cases margins with
  | some mg =>
    constructor
    · intro i hi
      exact C04_col_range_exact cv mg _ _ e3 (by rw [e4]; exact hs) (src_le hp.col) (by rw [e4]; exact a1) i hi
    · intro j hj
      exact C04_row_range_exact cv mg _ _ e3 (by rw [e4]; exact hs) (src_le hp.row) (by rw [e4]; exact a2) j hj
  | none =>
    constructor
    · intro i hi
      unfold UserCol
      rw [e3]
      exact ⟨fun _ => axis_in_range hs (src_le hp.col) a1 hi, fun _ => hi⟩
    · intro j hj
      unfold UserRow
      rw [e3]
      exact ⟨fun _ => axis_in_range hs (src_le hp.row) a2 hj, fun _ => hj⟩

/-- C04 after the matching cost, for any margins or none, any subpixel factor and any step: every multiple of `1 / subpix` of the user's ranges
has a cost in the volumes; when one of these costs is computable, the disparities of the pixel are in the user's ranges and its score is
at least as good as all of them. -/
theorem C04_after_matching_cost (hp : PairOk left right) (hs : 0 < cfg.subpix) (h1 : 1 ≤ cfg.stepRow) {invalid : F K} {out : DispOut K}
    (h : computeCostVolumes z pc cfg roi left right margins = .ok cv) (h' : computeDispMaps invalid cv = .ok out) (r c : Nat)
    (hpix : r < cv.row.n ∧ c < cv.col.n) :
    ∃ ic ir : Int → Nat,
      (∀ k : Int, (left.colDisp.src.1 : K) ≤ (k : K) / cfg.subpix → (k : K) / cfg.subpix ≤ (left.colDisp.src.2 : K) →
        ic k < cv.dispCol.n ∧ cv.dispCol.get (ic k) = (k : K) / cfg.subpix) ∧
      (∀ k : Int, (left.rowDisp.src.1 : K) ≤ (k : K) / cfg.subpix → (k : K) / cfg.subpix ≤ (left.rowDisp.src.2 : K) →
        ir k < cv.dispRow.n ∧ cv.dispRow.get (ir k) = (k : K) / cfg.subpix) ∧
      ∀ k l : Int, (left.colDisp.src.1 : K) ≤ (k : K) / cfg.subpix → (k : K) / cfg.subpix ≤ (left.colDisp.src.2 : K) →
        (left.rowDisp.src.1 : K) ≤ (l : K) / cfg.subpix → (l : K) / cfg.subpix ≤ (left.rowDisp.src.2 : K) →
        cv.data r c (ic k) (ir l) ≠ .nan →
        (∃ d, out.col.get r c = .fin d ∧ (left.colDisp.src.1 : K) ≤ d ∧ d ≤ (left.colDisp.src.2 : K)) ∧
        (∃ d, out.row.get r c = .fin d ∧ (left.rowDisp.src.1 : K) ≤ d ∧ d ≤ (left.rowDisp.src.2 : K)) ∧
        (∃ i < cv.dispCol.n, ∃ j < cv.dispRow.n,
          ((left.colDisp.src.1 : K) ≤ cv.dispCol.get i ∧ cv.dispCol.get i ≤ (left.colDisp.src.2 : K)) ∧
          ((left.rowDisp.src.1 : K) ≤ cv.dispRow.get j ∧ cv.dispRow.get j ≤ (left.rowDisp.src.2 : K)) ∧
          cv.data r c i j = out.score.get r c) ∧
        AtLeastAsGood cv.measure (out.score.get r c) (cv.data r c (ic k) (ir l)) := by
  obtain ⟨lr, lc⟩ := C13_axes_full_lattice hp hs h1 h
  obtain ⟨hc, hr⟩ := examined_iff hp hs h1 h
  have hcol : ∀ i, UserCol cv i → i < cv.dispCol.n := by
    intro i hi
    unfold UserCol at hi
    split at hi
    · exact hi
    · omega
  have hrow : ∀ j, UserRow cv j → j < cv.dispRow.n := by
    intro j hj
    unfold UserRow at hj
    split at hj
    · exact hj
    · omega
  have wide : ∀ (x y : Int) (a b : Nat) (q : K), (x : K) ≤ q → q ≤ (y : K) → ((x - a : Int) : K) ≤ q ∧ q ≤ ((y + b : Int) : K) := by
    intro x y a b q h1 h2
    push_cast
    have ha : (0 : K) ≤ (a : K) := by positivity
    have hb : (0 : K) ≤ (b : K) := by positivity
    constructor <;> linarith
  have exc : ∀ k : Int, ∃ i, (left.colDisp.src.1 : K) ≤ (k : K) / cfg.subpix → (k : K) / cfg.subpix ≤ (left.colDisp.src.2 : K) →
      i < cv.dispCol.n ∧ cv.dispCol.get i = (k : K) / cfg.subpix := by
    intro k
    by_cases hk : (left.colDisp.src.1 : K) ≤ (k : K) / cfg.subpix ∧ (k : K) / cfg.subpix ≤ (left.colDisp.src.2 : K)
    · obtain ⟨w1, w2⟩ := wide _ _ (mgD margins).left (mgD margins).right _ hk.1 hk.2
      obtain ⟨i, hi, e, -⟩ := lc.complete k w1 w2
      exact ⟨i, fun _ _ => ⟨hi, e⟩⟩
    · exact ⟨0, fun a b => absurd ⟨a, b⟩ hk⟩
  have exr : ∀ k : Int, ∃ i, (left.rowDisp.src.1 : K) ≤ (k : K) / cfg.subpix → (k : K) / cfg.subpix ≤ (left.rowDisp.src.2 : K) →
      i < cv.dispRow.n ∧ cv.dispRow.get i = (k : K) / cfg.subpix := by
    intro k
    by_cases hk : (left.rowDisp.src.1 : K) ≤ (k : K) / cfg.subpix ∧ (k : K) / cfg.subpix ≤ (left.rowDisp.src.2 : K)
    · obtain ⟨w1, w2⟩ := wide _ _ (mgD margins).up (mgD margins).down _ hk.1 hk.2
      obtain ⟨i, hi, e, -⟩ := lr.complete k w1 w2
      exact ⟨i, fun _ _ => ⟨hi, e⟩⟩
    · exact ⟨0, fun a b => absurd ⟨a, b⟩ hk⟩
  choose ic hic using exc
  choose ir hir using exr
  refine ⟨ic, ir, hic, hir, fun k l k1 k2 l1 l2 hne => ?_⟩
  obtain ⟨i1, i2⟩ := hic k k1 k2
  obtain ⟨j1, j2⟩ := hir l l1 l2
  have u1 : UserCol cv (ic k) := (hc _ i1).2 (by rw [i2]; exact ⟨k1, k2⟩)
  have u2 : UserRow cv (ir l) := (hr _ j1).2 (by rw [j2]; exact ⟨l1, l2⟩)
  have hn : ¬ NoCand cv r c := fun hn => hne (hn _ _ u1 u2)
  obtain ⟨⟨i, hi, ei⟩, ⟨j, hj, ej⟩, -, i', j', hi', hj', es⟩ := (C03_invalid_iff_no_candidate invalid cv out h' r c hpix).2 hn
  refine ⟨⟨_, ei, (hc i (hcol i hi)).1 hi⟩, ⟨_, ej, (hr j (hrow j hj)).1 hj⟩,
    ⟨i', hcol i' hi', j', hrow j' hj', (hc i' (hcol i' hi')).1 hi', (hr j' (hrow j' hj')).1 hj', es⟩, ?_⟩
  exact (C02_score_is_best invalid cv out h' r c hpix hn).2 _ ⟨hne, _, _, u1, u2, rfl⟩

/-- The hypotheses hold with different margins in the four directions and a subpixel factor of 2; the range of the rows is [-1, 2] (grid), the
axis goes to 3; a pixel of the third row gets the row disparity 1. -/
example : PairOk exLeft exRightImg ∧ exLeft.rowDisp.src = (-1, 2) ∧
    ((computeCostVolumes zoomLinear exCost ⟨2, 1, 1, .min⟩ none exLeft exRightImg (some ⟨1, 0, 2, 1⟩)).toOption.bind fun cv =>
      (computeDispMaps (.fin (-9999)) cv).toOption.map fun o => (cv.dispRow.get (cv.dispRow.n - 1), o.row.get 2 1)) =
    some (3, .fin 1) := by
  refine ⟨exPair, by decide, by decide +kernel⟩

end Verif.Props
