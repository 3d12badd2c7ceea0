import Verif.Props.Save
import Verif.Props.OwnRange

/-!
# The files written for a zone

What `save_dataset` writes from the coordinates of the matching cost, with or without ROI, in one statement.
-/

namespace Verif.Props

open Verif Verif.ImgTools Verif.MatchingCost Verif.Disparity Verif.Save Verif.Spec

set_option linter.unusedSectionVars false

variable {K : Type} [Field K] [LinearOrder K] [IsStrictOrderedRing K] [FloorRing K] {β : Type}

/-- The points of a grid between two bounds, from a point of the grid on. -/
theorem grid_between {x y : Arr1 Int} {a c0 first last : Int} {n s : Nat} (hs : 1 ≤ s) (hg : IsGrid x a c0 n s)
    (hl : last < c0 + n) (hd : (s : Int) ∣ first - a) (ha : a ≤ first)
    (hy : y.toList = x.toList.filter fun v => decide (first ≤ v ∧ v ≤ last)) (p : IsProg y first s) :
    ∀ i, i < y.n ↔ first + (i : Int) * s ≤ last := by
  obtain ⟨hp, -, hk⟩ := hg
  have mem : ∀ i, i < y.n → y.get i ∈ y.toList := fun k hk => List.mem_map.2 ⟨k, List.mem_range.2 hk, rfl⟩
  intro i
  constructor
  · intro hi
    have := mem i hi
    rw [hy, List.mem_filter] at this
    rw [← p i hi]
    simpa using (of_decide_eq_true this.2).2
  · intro hi
    obtain ⟨k, ek⟩ := hd
    have hk0 : 0 ≤ k := by
      by_contra hneg
      have : (s : Int) * k ≤ (s : Int) * (-1) := Int.mul_le_mul_of_nonneg_left (by omega) (by omega)
      omega
    have e : first + (i : Int) * s = a + ((k.toNat + i : Nat) : Int) * s := by
      push_cast
      rw [Int.toNat_of_nonneg hk0]
      linarith [ek, mul_comm (s : Int) k]
    have hlt : k.toNat + i < x.n := (hk _).2 (by omega)
    have hx : x.get (k.toNat + i) = first + (i : Int) * s := by rw [hp _ hlt, e]
    have hm : first + (i : Int) * s ∈ y.toList := by
      rw [hy, List.mem_filter]
      refine ⟨hx ▸ List.mem_map.2 ⟨_, List.mem_range.2 hlt, rfl⟩, ?_⟩
      have : (0 : Int) ≤ (i : Int) * s := by positivity
      simp only [decide_eq_true_eq]
      omega
    obtain ⟨i', hi', e'⟩ := List.mem_map.1 hm
    rw [List.mem_range] at hi'
    rw [p i' hi'] at e'
    have : (i' : Int) * s = (i : Int) * s := by omega
    have : i' = i := by
      have := Int.eq_of_mul_eq_mul_right (by omega : (s : Int) ≠ 0) this
      omega
    omega

/-- The zone of the matching: the whole image, or the crop of a ROI. -/
def ZoneOk (img : Img K) (roi : Option Roi) (H W : Nat) (rf rl cf cl : Int) : Prop :=
  match roi with
  | none => img.row0 = 0 ∧ img.col0 = 0 ∧ img.h = H ∧ img.w = W ∧ rf = 0 ∧ rl = (H : Int) - 1 ∧ cf = 0 ∧ cl = (W : Int) - 1
  | some R => CropOk img R H W ∧ R.rowFirst = rf ∧ R.rowLast = rl ∧ R.colFirst = cf ∧ R.colLast = cl

/-- What the three files hold: the points of the zone, located by their transform, with values of the maps at these points. -/
theorem saved_zone {z : Zoom K} {pc : Pandora.Cost K} {cfg : Cfg} {left : Left K} {right : Img K} {margins : Option Margins}
    {cv : CostVolumes K} {roi : Option Roi} {H W : Nat} {rf rl cf cl : Int} (hp : PairOk left right) (hs : 0 < cfg.subpix)
    (h1 : 1 ≤ cfg.stepRow) (h2 : 1 ≤ cfg.stepCol) (hz : ZoneOk left.img roi H W rf rl cf cl)
    (h : computeCostVolumes z pc cfg roi left right margins = .ok cv) (rowMap colMap score : Nat → Nat → β)
    (crs : Option String) (tr : Option (Affine K)) :
    ∃ files after, saveDataset ⟨⟨cv.row, cv.col, rowMap, colMap, score⟩, crs, tr⟩ ⟨roi, some (cfg.stepRow, cfg.stepCol)⟩
        = .ok (files, after) ∧
      (∀ f ∈ [files.row, files.col, files.score], f.crs = crs ∧ (∀ i, i < f.h ↔ rf + (i : Int) * cfg.stepRow ≤ rl) ∧
        (∀ j, j < f.w ↔ cf + (j : Int) * cfg.stepCol ≤ cl) ∧ (tr = none → f.transform = none) ∧
        ∀ t, tr = some t → ∃ out, f.transform = some out ∧ ∀ i < f.h, ∀ j < f.w,
          Locates out t i j (rf + (i : Int) * cfg.stepRow) (cf + (j : Int) * cfg.stepCol) cfg.stepRow cfg.stepCol) ∧
      ∀ i < files.row.h, ∀ j < files.row.w, ∃ r' < cv.row.n, ∃ c' < cv.col.n,
        cv.row.get r' = rf + (i : Int) * cfg.stepRow ∧ cv.col.get c' = cf + (j : Int) * cfg.stepCol ∧
        files.row.values i j = rowMap r' c' ∧ files.col.values i j = colMap r' c' ∧ files.score.values i j = score r' c' := by
  cases roi with
  | none =>
    obtain ⟨z1, z2, z3, z4, rfl, rfl, rfl, rfl⟩ := hz
    obtain ⟨g1, g2⟩ := C17_coordinates_without_roi hp hs h1 h2 h
    rw [z1, z3] at g1
    rw [z2, z4] at g2
    obtain ⟨files, after, e, hf, v1, v2, v3⟩ := C21_without_roi (K := K) (β := β) ⟨⟨cv.row, cv.col, rowMap, colMap, score⟩, crs, tr⟩
      ⟨none, some (cfg.stepRow, cfg.stepCol)⟩ rfl g1.1 g2.1
    refine ⟨files, after, e, ?_, ?_⟩
    · intro f hm
      obtain ⟨a1, a2, a3, a4, a5⟩ := hf f hm
      refine ⟨a3, fun i => ?_, fun j => ?_, a4, fun t ht => ?_⟩
      · rw [a1]
        have := g1.2.2 i
        show i < cv.row.n ↔ _
        omega
      · rw [a2]
        have := g2.2.2 j
        show j < cv.col.n ↔ _
        omega
      · obtain ⟨out, b1, b2⟩ := a5 t ht
        refine ⟨out, b1, fun i hi j hj => ?_⟩
        have := b2 i (a1 ▸ hi) j (a2 ▸ hj)
        rw [g1.1 i (a1 ▸ hi), g2.1 j (a2 ▸ hj)] at this
        exact this
    · intro i hi j hj
      obtain ⟨a1, a2, -⟩ := hf files.row (by simp)
      rw [v1, v2, v3]
      exact ⟨i, a1 ▸ hi, j, a2 ▸ hj, g1.1 i (a1 ▸ hi), g2.1 j (a2 ▸ hj), rfl, rfl, rfl⟩
  | some R =>
    obtain ⟨hc, rfl, rfl, rfl, rfl⟩ := hz
    obtain ⟨⟨a, gr, ale, adv, -⟩, ⟨b, gc, ble, bdv, -⟩⟩ := C17_coordinates_with_roi hp hs h1 h2 hc h
    obtain ⟨out, ho, x1, x2, m1, m2, x3⟩ := C19_after_matching_cost hp hs h1 h2 hc h rowMap colMap score
    have slices : ∃ u d l r, out.row = cv.row.slice u d ∧ out.col = cv.col.slice l r := by
      unfold removeRoiMargins at ho
      simp only [bind, Except.bind, pure, Except.pure] at ho
      split at ho
      · simp at ho
      · split at ho
        · simp at ho
        · rw [Except.ok.injEq] at ho
          rw [← ho]
          exact ⟨_, _, _, _, rfl, rfl⟩
    obtain ⟨u, d, l, r, er, ec⟩ := slices
    have prow : IsProg out.row R.rowFirst cfg.stepRow := by
      apply prog_first h1 (by rw [er]; exact slice_prog gr.1 u d) m1
      intro y hy
      rw [x1, List.mem_filter] at hy
      exact (of_decide_eq_true hy.2).1
    have pcol : IsProg out.col R.colFirst cfg.stepCol := by
      apply prog_first h2 (by rw [ec]; exact slice_prog gc.1 l r) m2
      intro y hy
      rw [x2, List.mem_filter] at hy
      exact (of_decide_eq_true hy.2).1
    have n1 := grid_between h1 gr (by have := hc.row1; have := hc.rows; have := hc.margins; omega) adv ale x1 prow
    have n2 := grid_between h2 gc (by have := hc.col1; have := hc.cols; have := hc.margins; omega) bdv ble x2 pcol
    have loc : ∀ t : Affine K, ∀ i < out.row.n, ∀ j < out.col.n,
        Locates (adjust ⟨some R, some (cfg.stepRow, cfg.stepCol)⟩ t) t i j (R.rowFirst + (i : Int) * cfg.stepRow)
          (R.colFirst + (j : Int) * cfg.stepCol) cfg.stepRow cfg.stepCol := by
      intro t i hi j hj u v
      rw [ground_adjust]
      simp only [Option.getD_some]
      congr 1 <;> push_cast <;> ring
    have vals : ∀ i < out.row.n, ∀ j < out.col.n, ∃ r' < cv.row.n, ∃ c' < cv.col.n,
        cv.row.get r' = R.rowFirst + (i : Int) * cfg.stepRow ∧ cv.col.get c' = R.colFirst + (j : Int) * cfg.stepCol ∧
        out.rowMap i j = rowMap r' c' ∧ out.colMap i j = colMap r' c' ∧ out.score i j = score r' c' := by
      intro i hi j hj
      obtain ⟨r', hr', c', hc', q1, q2, q3, q4, q5⟩ := x3 i hi j hj
      exact ⟨r', hr', c', hc', by rw [← q1, prow i hi], by rw [← q2, pcol j hj], q3, q4, q5⟩
    unfold saveDataset prepared
    simp only [bind, Except.bind, pure, Except.pure, ho]
    cases tr with
    | none =>
      refine ⟨_, _, rfl, ?_, vals⟩
      intro f hf
      simp only [List.mem_cons, List.not_mem_nil, or_false] at hf
      rcases hf with rfl | rfl | rfl <;> exact ⟨rfl, n1, n2, fun _ => rfl, fun t ht => by simp at ht⟩
    | some t =>
      refine ⟨_, _, rfl, ?_, vals⟩
      intro f hf
      simp only [List.mem_cons, List.not_mem_nil, or_false] at hf
      rcases hf with rfl | rfl | rfl
      all_goals
        refine ⟨rfl, n1, n2, fun h => by simp at h, fun t' ht => ?_⟩
        obtain rfl := Option.some.inj ht
        exact ⟨_, rfl, loc t⟩

end Verif.Props
