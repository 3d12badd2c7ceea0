import Verif.Lemmas.Disparity
import Mathlib.Tactic.FieldSimp
import Mathlib.Tactic.NormNum

/-!
# Properties C01 – C07: disparity maps (winner takes all)
-/

set_option linter.unusedSectionVars false

namespace Verif.Props

open Verif Verif.Disparity Verif.Spec

variable {K : Type} [LinearOrder K]

/-! ## A concrete dataset used for the non-vacuity examples

1 x 2 pixels, column disparities -1,0,1,2 and row disparities 0,1,2 with margins (1, 0, 1, 1) around the user's range
(columns 0..1, rows 0..1); pixel 0 has two computable candidates, pixel 1 has none in the user's range. -/

def exData : Nat → Nat → Nat → Nat → F ℤ := fun _ c i j =>
  if c = 0 then (if i = 1 ∧ j = 0 then .fin 5 else if i = 2 ∧ j = 1 then .fin 3 else if i = 0 then .fin 0 else .nan)
  else (if i = 0 then .fin 0 else .nan)

def exCv : CostVolumes ℤ where
  row := ⟨1, fun _ => 0⟩
  col := ⟨2, fun c => c⟩
  dispCol := ⟨4, fun i => (i : ℤ) - 1⟩
  dispRow := ⟨3, fun j => (j : ℤ)⟩
  data := exData
  margins := some ⟨1, 0, 1, 1⟩
  subpixel := 1
  measure := .min

/-! ## C01 — the memory-saving split does not change the result -/

/-- C01 (column reduction): `extrema_split(cv, 2, f)` gives, at every pixel of an image of any size, the extremum over the
column disparities of the unsplit volume; it never fails and never misses or misplaces a pixel. -/
theorem C01_extrema_split_col (m : Measure) (cv : Vol K) (n : Nat) (hn : 0 < n) :
    ∃ out, extremaSplitCol m cv n = .ok out ∧ out.h = cv.h ∧ out.w = cv.w ∧
      ∀ r < cv.h, ∀ c < cv.w, ∀ j, out.get r c j = m.ext ((List.range n).map fun i => cv.get r c i j) := by
  obtain ⟨out, h, h1, h2, h3⟩ := splitLoop_arange
    (fun (s : Nat → Nat → F K) j => m.ext ((List.range n).map fun i => s i j)) cv cv.w cv.h
    ⟨cv.h, cv.w, fun _ _ _ => .nan⟩ rfl rfl
  refine ⟨out, ?_, h1, h2, fun r hr c hc j => by rw [h3 r hr c hc]⟩
  unfold extremaSplitCol; rw [if_neg (by omega), h]

/-- C01 (row reduction): `extrema_split(cv, 3, f)`. -/
theorem C01_extrema_split_row (m : Measure) (cv : Vol K) (n : Nat) (hn : 0 < n) :
    ∃ out, extremaSplitRow m cv n = .ok out ∧ out.h = cv.h ∧ out.w = cv.w ∧
      ∀ r < cv.h, ∀ c < cv.w, ∀ i, out.get r c i = m.ext ((List.range n).map fun j => cv.get r c i j) := by
  obtain ⟨out, h, h1, h2, h3⟩ := splitLoop_arange
    (fun (s : Nat → Nat → F K) i => m.ext ((List.range n).map fun j => s i j)) cv cv.w cv.h
    ⟨cv.h, cv.w, fun _ _ _ => .nan⟩ rfl rfl
  refine ⟨out, ?_, h1, h2, fun r hr c hc j => by rw [h3 r hr c hc]⟩
  unfold extremaSplitRow; rw [if_neg (by omega), h]

/-- C01 (score): `get_score`. -/
theorem C01_get_score (m : Measure) (a : Arr2 (Nat → F K)) (n : Nat) (hn : 0 < n) :
    ∃ out, getScore m a n = .ok out ∧ out.h = a.h ∧ out.w = a.w ∧
      ∀ r < a.h, ∀ c < a.w, out.get r c = m.ext ((List.range n).map (a.get r c)) := by
  obtain ⟨out, h, h1, h2, h3⟩ := splitLoop_arange
    (fun (s : Nat → F K) => m.ext ((List.range n).map s)) a a.h a.w ⟨a.h, a.w, fun _ _ => .nan⟩ rfl rfl
  refine ⟨out, ?_, h1, h2, fun r hr c hc => by rw [h3 r hr c hc]⟩
  unfold getScore; rw [if_neg (by omega), h]

/-- C01 (indices): `arg_split`. -/
theorem C01_arg_split (m : Measure) (a : Arr2 (Nat → F K)) (n : Nat) (hn : 0 < n) :
    ∃ out, argSplit m a n = .ok out ∧ out.h = a.h ∧ out.w = a.w ∧
      ∀ r < a.h, ∀ c < a.w, out.get r c = m.arg ((List.range n).map (a.get r c)) := by
  obtain ⟨out, h, h1, h2, h3⟩ := splitLoop_arange
    (fun (s : Nat → F K) => m.arg ((List.range n).map s)) a a.h a.w ⟨a.h, a.w, fun _ _ => 0⟩ rfl rfl
  refine ⟨out, ?_, h1, h2, fun r hr c hc => by rw [h3 r hr c hc]⟩
  unfold argSplit; rw [if_neg (by omega), h]

/-- C01 (generalisation): whatever the (sorted) split points on both axes, and whatever the reduction, the block-wise
loop computes the reduction of every cell at its own place. -/
theorem C01_any_split {β γ : Type} (g : β → γ) (a : Arr2 β) (rowIdx colIdx : List Nat)
    (hr : rowIdx.Pairwise (· ≤ ·)) (hc : colIdx.Pairwise (· ≤ ·)) (out : Arr2 γ) (h1 : out.h = a.h) (h2 : out.w = a.w) :
    ∃ out', splitLoop g a rowIdx colIdx out = .ok out' ∧ out'.h = a.h ∧ out'.w = a.w ∧
      ∀ i < a.h, ∀ j < a.w, out'.get i j = g (a.get i j) :=
  splitLoop_spec g a rowIdx colIdx hr hc out h1 h2

/-- Test (not a proof of C01): a 250 x 130 image is really cut in several blocks. -/
example : arange100 130 = [100] ∧ arange100 250 = [100, 200] ∧
    splitBounds 250 (arange100 130) = [(0, 100), (100, 150)] ∧
    splitBounds 130 (arange100 250) = [(0, 100), (100, 30), (130, 0)] := by decide

/-! ## Existence of the result -/

theorem window_pos_of_user {cv : CostVolumes K} {i j : Nat} (hi : UserCol cv i) (hj : UserRow cv j) :
    0 < (userWindow cv).nc ∧ 0 < (userWindow cv).nr := by
  rw [userWindow_col] at hi
  rw [userWindow_row] at hj
  omega

/-- Error branch: when no disparity of the user's range exists in one direction, the call raises `ValueError`
(numpy refuses to reduce an empty axis). -/
theorem empty_range_raises (invalid : F K) (cv : CostVolumes K)
    (h : (¬ ∃ i, UserCol cv i) ∨ (¬ ∃ j, UserRow cv j)) :
    computeDispMaps invalid cv = .error .valueError := by
  have hz : (userWindow cv).nc = 0 ∨ (userWindow cv).nr = 0 := by
    rcases h with h | h
    · left
      by_contra hc
      exact h ⟨(userWindow cv).c0, (userWindow_col cv _).2 (by omega)⟩
    · right
      by_contra hc
      exact h ⟨(userWindow cv).r0, (userWindow_row cv _).2 (by omega)⟩
  by_cases hnc : (userWindow cv).nc = 0
  · unfold computeDispMaps
    simp [extremaSplitCol, hnc, bind, Except.bind]
  · have hnr : (userWindow cv).nr = 0 := by omega
    unfold computeDispMaps
    simp only
    obtain ⟨out, ho, -⟩ := C01_extrema_split_col cv.measure
      (view cv (setWhere cv cv.data (userWindow cv)
        (fun r c i j => ((view cv cv.data (userWindow cv)).get r c i j).isNaN) cv.measure.worst) (userWindow cv))
      (userWindow cv).nc (by omega)
    rw [ho]
    simp [argSplit, hnr, bind, Except.bind]

example : computeDispMaps (.fin (-9999)) { exCv with margins := some ⟨2, 0, 2, 0⟩ } = .error .valueError := by
  apply empty_range_raises
  left
  rintro ⟨i, hi⟩
  have : 2 * 1 ≤ i ∧ i + 2 * 1 < 4 := hi
  omega

/-- When the user's range contains a disparity in each direction the call returns maps with one value per pixel. -/
theorem maps_exist (invalid : F K) (cv : CostVolumes K) (hi : ∃ i, UserCol cv i) (hj : ∃ j, UserRow cv j) :
    ∃ out, computeDispMaps invalid cv = .ok out ∧
      (out.col.h = cv.row.n ∧ out.col.w = cv.col.n) ∧ (out.row.h = cv.row.n ∧ out.row.w = cv.col.n) ∧
      (out.score.h = cv.row.n ∧ out.score.w = cv.col.n) := by
  obtain ⟨i, hi⟩ := hi
  obtain ⟨j, hj⟩ := hj
  obtain ⟨h1, h2⟩ := window_pos_of_user hi hj
  obtain ⟨out, ho, a, b, c, -⟩ := computeDispMaps_char invalid cv h1 h2
  exact ⟨out, ho, a, b, c⟩

example : UserCol exCv 1 ∧ UserRow exCv 0 := by
  constructor
  · show 1 * 1 ≤ 1 ∧ 1 + 1 * 1 < 4; omega
  · show 0 * 1 ≤ 0 ∧ 0 + 1 * 1 < 3; omega

theorem window_pos_of_ok {invalid : F K} {cv : CostVolumes K} {out : DispOut K}
    (h : computeDispMaps invalid cv = .ok out) : 0 < (userWindow cv).nc ∧ 0 < (userWindow cv).nr := by
  by_contra hc
  have : (¬ ∃ i, UserCol cv i) ∨ (¬ ∃ j, UserRow cv j) := by
    by_cases hnc : (userWindow cv).nc = 0
    · left
      rintro ⟨i, hi⟩
      rw [userWindow_col] at hi
      omega
    · right
      rintro ⟨j, hj⟩
      rw [userWindow_row] at hj
      omega
  rw [empty_range_raises invalid cv this] at h
  cases h

theorem char_of_ok {invalid : F K} {cv : CostVolumes K} {out : DispOut K}
    (h : computeDispMaps invalid cv = .ok out) :
    0 < (userWindow cv).nc ∧ 0 < (userWindow cv).nr ∧ out.after = cv.data ∧
      ∀ r < cv.row.n, ∀ c < cv.col.n,
        out.col.get r c = (if bad cv r c then invalid else .fin (cv.dispCol.get ((userWindow cv).c0 + colArg cv r c))) ∧
        out.row.get r c = (if bad cv r c then invalid else .fin (cv.dispRow.get ((userWindow cv).r0 + rowArg cv r c))) ∧
        out.score.get r c = (if bad cv r c then invalid else best cv r c) := by
  obtain ⟨h1, h2⟩ := window_pos_of_ok h
  obtain ⟨out', ho, _, _, _, ha, hc⟩ := computeDispMaps_char invalid cv h1 h2
  rw [h] at ho
  cases ho
  exact ⟨h1, h2, ha, hc⟩

/-- C01 on `compute_disp_maps`: the three values of a pixel depend on its own costs only, whatever the sizes of the two volumes (so whatever
the blocks in which they are cut): two volumes with the same axes, margins, subpixel factor and measure which hold the same costs at a pixel
of each give it the same disparities and the same score. -/
theorem C01_pixel_alone (invalid : F K) (cv cv' : CostVolumes K) (out out' : DispOut K)
    (ha : cv'.dispCol = cv.dispCol ∧ cv'.dispRow = cv.dispRow) (hm : cv'.margins = cv.margins ∧ cv'.subpixel = cv.subpixel)
    (hme : cv'.measure = cv.measure) (h : computeDispMaps invalid cv = .ok out) (h' : computeDispMaps invalid cv' = .ok out')
    (r c r' c' : Nat) (hp : Pixel cv r c) (hp' : Pixel cv' r' c') (hd : ∀ i j, cv'.data r' c' i j = cv.data r c i j) :
    out'.col.get r' c' = out.col.get r c ∧ out'.row.get r' c' = out.row.get r c ∧ out'.score.get r' c' = out.score.get r c := by
  obtain ⟨-, -, -, k⟩ := char_of_ok h
  obtain ⟨-, -, -, k'⟩ := char_of_ok h'
  obtain ⟨k1, k2, k3⟩ := k r hp.1 c hp.2
  obtain ⟨k1', k2', k3'⟩ := k' r' hp'.1 c' hp'.2
  have hw : userWindow cv' = userWindow cv := by
    unfold userWindow
    rw [ha.1, ha.2, hm.1, hm.2]
  have hs : ∀ i j, surf cv' r' c' i j = surf cv r c i j := fun i j => by
    unfold surf; rw [hw, hme, hd]
  have hr : ∀ j, rowBest cv' r' c' j = rowBest cv r c j := fun j => by
    unfold rowBest; simp only [hw, hme, hs]
  have hc : ∀ i, colBest cv' r' c' i = colBest cv r c i := fun i => by
    unfold colBest; simp only [hw, hme, hs]
  have hb : bad cv' r' c' = bad cv r c := by
    unfold bad; simp only [hw, hd]
  have e1 : colArg cv' r' c' = colArg cv r c := by unfold colArg; simp only [hw, hme, hc]
  have e2 : rowArg cv' r' c' = rowArg cv r c := by unfold rowArg; simp only [hw, hme, hr]
  have e3 : best cv' r' c' = best cv r c := by unfold best; simp only [hw, hme, hc]
  rw [k1', k2', k3', k1, k2, k3, hb, hw, ha.1, ha.2, e1, e2, e3]
  exact ⟨rfl, rfl, rfl⟩

/-- C01: cutting never happens for an image of one pixel; the maps of any image are, pixel by pixel, those of the images of one pixel. -/
theorem C01_as_single_pixels (invalid : F K) (cv : CostVolumes K) (out : DispOut K) (h : computeDispMaps invalid cv = .ok out) (r c : Nat)
    (hp : Pixel cv r c) :
    ∃ o, computeDispMaps invalid { cv with
        row := ⟨1, fun _ => cv.row.get r⟩, col := ⟨1, fun _ => cv.col.get c⟩, data := fun _ _ i j => cv.data r c i j } = .ok o ∧
      out.col.get r c = o.col.get 0 0 ∧ out.row.get r c = o.row.get 0 0 ∧ out.score.get r c = o.score.get 0 0 := by
  set cv' : CostVolumes K := { cv with
    row := ⟨1, fun _ => cv.row.get r⟩, col := ⟨1, fun _ => cv.col.get c⟩, data := fun _ _ i j => cv.data r c i j }
  obtain ⟨h1, h2⟩ := window_pos_of_ok h
  obtain ⟨o, ho, -⟩ := computeDispMaps_char invalid cv' (show 0 < (userWindow cv).nc from h1) h2
  obtain ⟨q1, q2, q3⟩ := C01_pixel_alone invalid cv cv' out o ⟨rfl, rfl⟩ ⟨rfl, rfl⟩ rfl h ho r c 0 0 hp ⟨Nat.one_pos, Nat.one_pos⟩
    fun _ _ => rfl
  exact ⟨o, ho, q1.symm, q2.symm, q3.symm⟩

/-- The hypotheses hold: the costs of a pixel of the example, in an image which is cut in several blocks. -/
example : ∃ out out', computeDispMaps (.fin (-9999)) exCv = .ok out ∧
    computeDispMaps (.fin (-9999)) { exCv with
      row := ⟨250, fun i => i⟩, col := ⟨130, fun i => i⟩, data := fun _ _ i j => exCv.data 0 0 i j } = .ok out' ∧
    out'.row.get 249 129 = out.row.get 0 0 := by
  obtain ⟨out, ho, -⟩ := maps_exist (.fin (-9999)) exCv ⟨1, by show 1 * 1 ≤ 1 ∧ 1 + 1 * 1 < 4; omega⟩
    ⟨0, by show 0 * 1 ≤ 0 ∧ 0 + 1 * 1 < 3; omega⟩
  obtain ⟨out', ho', -⟩ := maps_exist (.fin (-9999)) { exCv with
      row := ⟨250, fun i => i⟩, col := ⟨130, fun i => i⟩, data := fun _ _ i j => exCv.data 0 0 i j }
    ⟨1, by show 1 * 1 ≤ 1 ∧ 1 + 1 * 1 < 4; omega⟩ ⟨0, by show 0 * 1 ≤ 0 ∧ 0 + 1 * 1 < 3; omega⟩
  exact ⟨out, out', ho, ho', (C01_pixel_alone _ exCv { exCv with
      row := ⟨250, fun i => i⟩, col := ⟨130, fun i => i⟩, data := fun _ _ i j => exCv.data 0 0 i j } _ _ ⟨rfl, rfl⟩ ⟨rfl, rfl⟩ rfl ho ho' 0 0 249 129 ⟨by decide, by decide⟩
    ⟨by show 249 < 250; omega, by show 129 < 130; omega⟩ fun _ _ => rfl).2.1⟩

/-! ## C02 — the score is the best candidate cost -/

theorem le_of_not_better {m : Measure} {x s : F K} (hx : x ≠ .nan) (hs : s ≠ .nan) (h : m.better x s = false) :
    AtLeastAsGood m s x := by
  unfold AtLeastAsGood
  cases m <;> simp only [Measure.better] at h ⊢
  · rw [F.le_iff_not_lt ((isNaN_false_iff x).2 hx) ((isNaN_false_iff s).2 hs), h]; rfl
  · rw [F.le_iff_not_lt ((isNaN_false_iff s).2 hs) ((isNaN_false_iff x).2 hx), h]; rfl

/-- C02: the score of a pixel which has a candidate is the maximum (or minimum) of the non-NaN costs of its candidates in
the user's ranges. -/
theorem C02_score_is_best (invalid : F K) (cv : CostVolumes K) (out : DispOut K)
    (h : computeDispMaps invalid cv = .ok out) (r c : Nat) (hp : Pixel cv r c) (hc : ¬ NoCand cv r c) :
    IsBest cv.measure (Cand cv r c) (out.score.get r c) := by
  obtain ⟨h1, h2, _, hch⟩ := char_of_ok h
  have hs := (hch r hp.1 c hp.2).2.2
  have hb : ¬ (bad cv r c = true) := fun hb => hc ((bad_iff cv r c).1 hb)
  rw [if_neg hb] at hs
  rw [hs]
  obtain ⟨⟨i, hi, j, hj, he⟩, hbest⟩ := best_spec cv r c h1 h2
  have hnn := best_not_nan cv r c h1 h2
  have hall : ∀ x, Cand cv r c x → cv.measure.better x (best cv r c) = false := by
    rintro x ⟨hx, i', j', hi', hj', rfl⟩
    rw [userWindow_col] at hi'
    rw [userWindow_row] at hj'
    have := hbest (i' - (userWindow cv).c0) (by omega) (j' - (userWindow cv).r0) (by omega)
    unfold surf at this
    rw [show (userWindow cv).c0 + (i' - (userWindow cv).c0) = i' by omega,
      show (userWindow cv).r0 + (j' - (userWindow cv).r0) = j' by omega,
      clean_of_not_nan _ ((isNaN_false_iff _).2 hx)] at this
    exact this
  refine ⟨⟨(isNaN_false_iff _).1 hnn, ?_⟩, ?_⟩
  · by_cases hd : (cv.data r c ((userWindow cv).c0 + i) ((userWindow cv).r0 + j)).isNaN = true
    · -- the best value is the worst infinity: some candidate has this cost
      have hw : best cv r c = cv.measure.worst := by rw [he]; simp [surf, clean, hd]
      unfold NoCand at hc
      push Not at hc
      obtain ⟨i', j', hi', hj', hne⟩ := hc
      refine ⟨i', j', hi', hj', ?_⟩
      have hx := hall _ ⟨hne, i', j', hi', hj', rfl⟩
      rw [hw] at hx ⊢
      exact cv.measure.better_total ((isNaN_false_iff _).2 hne) cv.measure.worst_not_nan hx
        (cv.measure.worst_not_better _)
    · refine ⟨(userWindow cv).c0 + i, (userWindow cv).r0 + j, (userWindow_col cv _).2 (by omega),
        (userWindow_row cv _).2 (by omega), ?_⟩
      rw [he, surf, clean_of_not_nan _ (by simpa using hd)]
  · intro x hx
    exact le_of_not_better hx.1 ((isNaN_false_iff _).1 hnn) (hall x hx)

example : Pixel exCv 0 0 ∧ ¬ NoCand exCv 0 0 ∧ NoCand exCv 0 1 := by
  refine ⟨⟨by decide, by decide⟩, ?_, ?_⟩
  · intro h
    have := h 1 0 (by show 1 * 1 ≤ 1 ∧ 1 + 1 * 1 < 4; omega) (by show 0 * 1 ≤ 0 ∧ 0 + 1 * 1 < 3; omega)
    revert this; decide
  · intro i j hi hj
    have hi' : 1 * 1 ≤ i ∧ i + 1 * 1 < 4 := hi
    have h0 : i ≠ 0 := by omega
    simp [exCv, exData, h0]

/-! ## C03 — invalid exactly when there is no candidate, in the three maps at once -/

/-- C03: a pixel without candidate gets the invalid value in the three maps; a pixel with a candidate gets a column and
a row disparity of the user's range and the cost of a candidate. -/
theorem C03_invalid_iff_no_candidate (invalid : F K) (cv : CostVolumes K) (out : DispOut K)
    (h : computeDispMaps invalid cv = .ok out) (r c : Nat) (hp : Pixel cv r c) :
    (NoCand cv r c → out.col.get r c = invalid ∧ out.row.get r c = invalid ∧ out.score.get r c = invalid) ∧
    (¬ NoCand cv r c →
      (∃ i, UserCol cv i ∧ out.col.get r c = .fin (cv.dispCol.get i)) ∧
      (∃ j, UserRow cv j ∧ out.row.get r c = .fin (cv.dispRow.get j)) ∧ Cand cv r c (out.score.get r c)) := by
  obtain ⟨h1, h2, _, hch⟩ := char_of_ok h
  obtain ⟨hcol, hrow, hs⟩ := hch r hp.1 c hp.2
  constructor
  · intro hn
    have hb := (bad_iff cv r c).2 hn
    simp only [hb, if_true] at hcol hrow hs
    exact ⟨hcol, hrow, hs⟩
  · intro hn
    have hb : ¬ (bad cv r c = true) := fun hb => hn ((bad_iff cv r c).1 hb)
    rw [if_neg hb] at hcol hrow
    refine ⟨⟨_, (userWindow_col cv _).2 ?_, hcol⟩, ⟨_, (userWindow_row cv _).2 ?_, hrow⟩,
      (C02_score_is_best invalid cv out h r c hp hn).1⟩
    · have := (colArg_spec cv r c h1 h2).1; omega
    · have := (rowArg_spec cv r c h1 h2).1; omega

/-- C03 (as an equivalence): when the invalid value is neither a disparity of the range nor a cost of the pixel, each map
holds it exactly at the pixels without candidate. -/
theorem C03_invalid_iff (invalid : F K) (cv : CostVolumes K) (out : DispOut K)
    (h : computeDispMaps invalid cv = .ok out) (r c : Nat) (hp : Pixel cv r c)
    (hcol : ∀ i, UserCol cv i → invalid ≠ .fin (cv.dispCol.get i))
    (hrow : ∀ j, UserRow cv j → invalid ≠ .fin (cv.dispRow.get j)) (hcost : ¬ Cand cv r c invalid) :
    (out.col.get r c = invalid ↔ NoCand cv r c) ∧ (out.row.get r c = invalid ↔ NoCand cv r c) ∧
      (out.score.get r c = invalid ↔ NoCand cv r c) := by
  obtain ⟨ha, hb⟩ := C03_invalid_iff_no_candidate invalid cv out h r c hp
  by_cases hn : NoCand cv r c
  · obtain ⟨a, b, d⟩ := ha hn
    simp [hn, a, b, d]
  · obtain ⟨⟨i, hi, ei⟩, ⟨j, hj, ej⟩, hs⟩ := hb hn
    refine ⟨⟨fun e => absurd (e.symm.trans ei) (hcol i hi), fun e => absurd e hn⟩,
      ⟨fun e => absurd (e.symm.trans ej) (hrow j hj), fun e => absurd e hn⟩,
      ⟨fun e => absurd (e ▸ hs) hcost, fun e => absurd e hn⟩⟩

/-- The hypotheses of `C03_invalid_iff` hold for the default invalid value on the example. -/
example : (∀ i, UserCol exCv i → (.fin (-9999) : F ℤ) ≠ .fin (exCv.dispCol.get i)) ∧
    (∀ j, UserRow exCv j → (.fin (-9999) : F ℤ) ≠ .fin (exCv.dispRow.get j)) ∧ ¬ Cand exCv 0 0 (.fin (-9999)) := by
  refine ⟨?_, ?_, ?_⟩
  · intro i _ h
    have : (-9999 : ℤ) = (i : ℤ) - 1 := by simpa [exCv] using h
    omega
  · intro j _ h
    have : (-9999 : ℤ) = (j : ℤ) := by injection h
    omega
  · rintro ⟨_, i, j, hi, hj, h⟩
    have : exData 0 0 i j = .fin (-9999) := h
    unfold exData at this
    simp only [if_true] at this
    split_ifs at this <;> simp_all

/-! ## C04 — margins are trimmed exactly -/

/-- C04 (axes): on an axis built for the user's range `[lo, hi]` with margins and a subpixel factor, the examined
column disparities are exactly the disparities of the axis that lie in `[lo, hi]`. -/
theorem C04_col_range_exact {K : Type} [Field K] [LinearOrder K] [IsStrictOrderedRing K] (cv : CostVolumes K)
    (mg : Margins) (lo hi : Int) (hm : cv.margins = some mg) (hs : 0 < cv.subpixel) (hle : lo ≤ hi)
    (ha : IsAxis cv.dispCol lo hi mg.left mg.right cv.subpixel) (i : Nat) (hi' : i < cv.dispCol.n) :
    UserCol cv i ↔ (lo : K) ≤ cv.dispCol.get i ∧ cv.dispCol.get i ≤ (hi : K) := by
  obtain ⟨hn, hg⟩ := ha
  unfold UserCol
  rw [hm]
  simp only
  rw [hg i hi', hn]
  have hsK : (0 : K) < (cv.subpixel : K) := by exact_mod_cast hs
  have e1 : (lo : K) ≤ ((lo - mg.left : Int) : K) + (i : K) / (cv.subpixel : K) ↔ mg.left * cv.subpixel ≤ i := by
    push_cast
    have : (lo : K) ≤ (lo : K) - (mg.left : K) + (i : K) / (cv.subpixel : K) ↔
        (mg.left : K) ≤ (i : K) / (cv.subpixel : K) := by
      constructor <;> intro h <;> linarith
    rw [this, le_div_iff₀ hsK]
    exact_mod_cast Iff.rfl
  have e2 : ((lo - mg.left : Int) : K) + (i : K) / (cv.subpixel : K) ≤ (hi : K) ↔
      i ≤ ((hi - lo).toNat + mg.left) * cv.subpixel := by
    obtain ⟨d, hd⟩ : ∃ d : Nat, hi = lo + d := ⟨(hi - lo).toNat, by omega⟩
    subst hd
    have : (lo + (d : Int) - lo).toNat = d := by omega
    rw [this]
    push_cast
    have : (lo : K) - (mg.left : K) + (i : K) / (cv.subpixel : K) ≤ (lo : K) + (d : K) ↔
        (i : K) / (cv.subpixel : K) ≤ (d : K) + (mg.left : K) := by
      constructor <;> intro h <;> linarith
    rw [this, div_le_iff₀ hsK]
    exact_mod_cast Iff.rfl
  rw [e1, e2]
  refine and_congr_right fun _ => ?_
  rw [add_mul]
  omega

/-- C04 (axes): same statement for the row disparities, with the up and down margins. -/
theorem C04_row_range_exact {K : Type} [Field K] [LinearOrder K] [IsStrictOrderedRing K] (cv : CostVolumes K)
    (mg : Margins) (lo hi : Int) (hm : cv.margins = some mg) (hs : 0 < cv.subpixel) (hle : lo ≤ hi)
    (ha : IsAxis cv.dispRow lo hi mg.up mg.down cv.subpixel) (j : Nat) (hj' : j < cv.dispRow.n) :
    UserRow cv j ↔ (lo : K) ≤ cv.dispRow.get j ∧ cv.dispRow.get j ≤ (hi : K) := by
  have := C04_col_range_exact
    { cv with dispCol := cv.dispRow, margins := some ⟨mg.up, mg.left, mg.down, mg.right⟩ }
    ⟨mg.up, mg.left, mg.down, mg.right⟩ lo hi rfl hs hle ha j hj'
  rw [← this]
  unfold UserRow UserCol
  rw [hm]

/-- C04: with margins (zero or not, in each direction) and any subpixel factor, every valid pixel gets a column and a row
disparity inside the user's ranges, and the score is the best cost among all the candidates of the volume whose
disparities are inside these ranges. -/
theorem C04_margins_never_selected {K : Type} [Field K] [LinearOrder K] [IsStrictOrderedRing K] (invalid : F K)
    (cv : CostVolumes K) (out : DispOut K) (h : computeDispMaps invalid cv = .ok out)
    (mg : Margins) (cl ch rl rh : Int) (hm : cv.margins = some mg) (hs : 0 < cv.subpixel) (hc : cl ≤ ch) (hr : rl ≤ rh)
    (hac : IsAxis cv.dispCol cl ch mg.left mg.right cv.subpixel)
    (har : IsAxis cv.dispRow rl rh mg.up mg.down cv.subpixel)
    (r c : Nat) (hp : Pixel cv r c) (hn : ¬ NoCand cv r c) :
    (∃ d, out.col.get r c = .fin d ∧ (cl : K) ≤ d ∧ d ≤ (ch : K)) ∧
    (∃ d, out.row.get r c = .fin d ∧ (rl : K) ≤ d ∧ d ≤ (rh : K)) ∧
    IsBest cv.measure (fun x => x ≠ .nan ∧ ∃ i < cv.dispCol.n, ∃ j < cv.dispRow.n,
      ((cl : K) ≤ cv.dispCol.get i ∧ cv.dispCol.get i ≤ (ch : K)) ∧
      ((rl : K) ≤ cv.dispRow.get j ∧ cv.dispRow.get j ≤ (rh : K)) ∧ cv.data r c i j = x) (out.score.get r c) := by
  have hcol : ∀ i, UserCol cv i → i < cv.dispCol.n := by
    intro i hi
    unfold UserCol at hi; rw [hm] at hi; simp only at hi; omega
  have hrow : ∀ i, UserRow cv i → i < cv.dispRow.n := by
    intro i hi
    unfold UserRow at hi; rw [hm] at hi; simp only at hi; omega
  obtain ⟨⟨i, hi, ei⟩, ⟨j, hj, ej⟩, _⟩ := (C03_invalid_iff_no_candidate invalid cv out h r c hp).2 hn
  refine ⟨⟨_, ei, (C04_col_range_exact cv mg cl ch hm hs hc hac i (hcol i hi)).1 hi⟩,
    ⟨_, ej, (C04_row_range_exact cv mg rl rh hm hs hr har j (hrow j hj)).1 hj⟩, ?_⟩
  have hb := C02_score_is_best invalid cv out h r c hp hn
  refine ⟨?_, ?_⟩
  · obtain ⟨hx, i, j, hi, hj, e⟩ := hb.1
    exact ⟨hx, i, hcol i hi, j, hrow j hj, (C04_col_range_exact cv mg cl ch hm hs hc hac i (hcol i hi)).1 hi,
      (C04_row_range_exact cv mg rl rh hm hs hr har j (hrow j hj)).1 hj, e⟩
  · rintro x ⟨hx, i, hi, j, hj, h1, h2, e⟩
    exact hb.2 x ⟨hx, i, j, (C04_col_range_exact cv mg cl ch hm hs hc hac i hi).2 h1,
      (C04_row_range_exact cv mg rl rh hm hs hr har j hj).2 h2, e⟩

/-- A volume with subpixel factor 2 and asymmetric margins (one of them zero) meets the hypotheses. -/
example : IsAxis (⟨9, fun i => (-3 : ℚ) + i / 2⟩ : Arr1 ℚ) (-1) 1 2 0 2 := by
  refine ⟨by decide, fun i _ => ?_⟩
  norm_num

/-! ## C05 — the pair of disparities and the score -/

/-- Full statement of C05. -/
def C05Statement : Prop :=
  ∀ (invalid : F ℤ) (cv : CostVolumes ℤ) (out : DispOut ℤ), computeDispMaps invalid cv = .ok out →
    ∀ r c, Pixel cv r c → ¬ NoCand cv r c → NoWorst cv r c →
      ∃ i j, UserCol cv i ∧ UserRow cv j ∧ out.col.get r c = .fin (cv.dispCol.get i) ∧
        out.row.get r c = .fin (cv.dispRow.get j) ∧ cv.data r c i j = out.score.get r c

/-- Two best candidates on the anti-diagonal: (col 0, row 1) and (col 1, row 0). -/
def tieCv : CostVolumes ℤ where
  row := ⟨1, fun _ => 0⟩
  col := ⟨1, fun _ => 0⟩
  dispCol := ⟨2, fun i => (i : ℤ)⟩
  dispRow := ⟨2, fun j => (j : ℤ)⟩
  data := fun _ _ i j => if i = j then .fin 1 else .fin 0
  margins := none
  subpixel := 1
  measure := .min

/-- C05 is false: with two best candidates which differ in both directions the returned pair may be a candidate whose
cost is not the score (here the pair (0, 0) of cost 1, for a score of 0). -/
theorem C05_false_with_ties : ¬ C05Statement := by
  intro h
  have hn : ¬ NoCand tieCv 0 0 := by
    intro hn
    have := hn 0 0 (by show 0 < 2; omega) (by show 0 < 2; omega)
    revert this; decide
  have hw : NoWorst tieCv 0 0 := by
    intro i j _ _ e
    revert e
    show (if i = j then (.fin 1 : F ℤ) else .fin 0) = .pinf → False
    split_ifs <;> simp
  obtain ⟨out, ho, -, -, -, -, hch⟩ := computeDispMaps_char (.fin (-9999)) tieCv (by decide) (by decide)
  obtain ⟨i, j, hi, hj, ei, ej, e⟩ := h (.fin (-9999)) tieCv out ho 0 0 ⟨by decide, by decide⟩ hn hw
  obtain ⟨a, b, d⟩ := hch 0 (by decide) 0 (by decide)
  have a' : out.col.get 0 0 = .fin 0 := a.trans (by decide)
  have b' : out.row.get 0 0 = .fin 0 := b.trans (by decide)
  have d' : out.score.get 0 0 = .fin 0 := d.trans (by decide)
  rw [a'] at ei; rw [b'] at ej; rw [d'] at e
  have hi0 : i = 0 := by
    have : (0 : ℤ) = (i : ℤ) := by injection ei
    omega
  have hj0 : j = 0 := by
    have : (0 : ℤ) = (j : ℤ) := by injection ej
    omega
  subst hi0; subst hj0
  revert e; decide

section
variable {invalid : F K} {cv : CostVolumes K} {out : DispOut K}

/-- Description of the returned pair by indices: each index is the least one for which some candidate attains the
score. -/
theorem pair_spec (h : computeDispMaps invalid cv = .ok out) (r c : Nat) (hp : Pixel cv r c) (hn : ¬ NoCand cv r c)
    (hw : NoWorst cv r c) :
    ∃ i j, UserCol cv i ∧ UserRow cv j ∧ out.col.get r c = .fin (cv.dispCol.get i) ∧
      out.row.get r c = .fin (cv.dispRow.get j) ∧
      (∃ j', UserRow cv j' ∧ cv.data r c i j' = out.score.get r c) ∧
      (∃ i', UserCol cv i' ∧ cv.data r c i' j = out.score.get r c) ∧
      (∀ i' j', UserCol cv i' → UserRow cv j' → cv.data r c i' j' = out.score.get r c → i ≤ i' ∧ j ≤ j') := by
  obtain ⟨h1, h2, _, hch⟩ := char_of_ok h
  obtain ⟨hcol, hrow, hs⟩ := hch r hp.1 c hp.2
  have hb : ¬ (bad cv r c = true) := fun hb => hn ((bad_iff cv r c).1 hb)
  rw [if_neg hb] at hcol hrow hs
  rw [hs]
  -- the best value is not the worst infinity
  have hbw : best cv r c ≠ cv.measure.worst := by
    have hc := (C02_score_is_best invalid cv out h r c hp hn).1
    rw [hs] at hc
    obtain ⟨_, i, j, hi, hj, e⟩ := hc
    have := hw i j hi hj
    rw [e] at this
    cases hm : cv.measure <;> rw [hm] at this <;> exact this
  have hsurf : ∀ i j, surf cv r c i j = best cv r c →
      cv.data r c ((userWindow cv).c0 + i) ((userWindow cv).r0 + j) = best cv r c := by
    intro i j e
    rw [← e]
    unfold surf at e ⊢
    by_cases hd : (cv.data r c ((userWindow cv).c0 + i) ((userWindow cv).r0 + j)).isNaN = true
    · rw [clean, if_pos hd] at e
      exact absurd e.symm hbw
    · rw [clean_of_not_nan _ (by simpa using hd)]
  obtain ⟨a1, ⟨j1, hj1, e1⟩, a3⟩ := colArg_spec cv r c h1 h2
  obtain ⟨b1, ⟨i1, hi1, e2⟩, b3⟩ := rowArg_spec cv r c h1 h2
  refine ⟨_, _, (userWindow_col cv _).2 (by omega), (userWindow_row cv _).2 (by omega), hcol, hrow,
    ⟨_, (userWindow_row cv _).2 (by omega), hsurf _ _ e1⟩, ⟨_, (userWindow_col cv _).2 (by omega), hsurf _ _ e2⟩, ?_⟩
  intro i' j' hi' hj' e
  rw [userWindow_col] at hi'
  rw [userWindow_row] at hj'
  have es : surf cv r c (i' - (userWindow cv).c0) (j' - (userWindow cv).r0) = best cv r c := by
    unfold surf
    rw [show (userWindow cv).c0 + (i' - (userWindow cv).c0) = i' by omega,
      show (userWindow cv).r0 + (j' - (userWindow cv).r0) = j' by omega, e,
      clean_of_not_nan _ (best_not_nan cv r c h1 h2)]
  constructor
  · by_contra hlt
    exact a3 (i' - (userWindow cv).c0) (by omega) (j' - (userWindow cv).r0) (by omega) es
  · by_contra hlt
    exact b3 (j' - (userWindow cv).r0) (by omega) (i' - (userWindow cv).c0) (by omega) es

/-- C05, exact characterisation: the cost at the returned pair is the score if and only if the set of best candidates has
an element which is least in both directions. (Partial: without this condition the full statement is false, see
`C05_false_with_ties`.) The axes are supposed injective (disparities are distinct). -/
theorem C05_pair_attains_score_partial (h : computeDispMaps invalid cv = .ok out) (r c : Nat) (hp : Pixel cv r c)
    (hn : ¬ NoCand cv r c) (hw : NoWorst cv r c)
    (hic : ∀ i i', UserCol cv i → UserCol cv i' → cv.dispCol.get i = cv.dispCol.get i' → i = i')
    (hir : ∀ j j', UserRow cv j → UserRow cv j' → cv.dispRow.get j = cv.dispRow.get j' → j = j') :
    (∃ i j, UserCol cv i ∧ UserRow cv j ∧ out.col.get r c = .fin (cv.dispCol.get i) ∧
        out.row.get r c = .fin (cv.dispRow.get j) ∧ cv.data r c i j = out.score.get r c) ↔
    (∃ i j, UserCol cv i ∧ UserRow cv j ∧ cv.data r c i j = out.score.get r c ∧
      ∀ i' j', UserCol cv i' → UserRow cv j' → cv.data r c i' j' = out.score.get r c → i ≤ i' ∧ j ≤ j') := by
  obtain ⟨i, j, hi, hj, ei, ej, ⟨j1, hj1, e1⟩, ⟨i1, hi1, e2⟩, hmin⟩ := pair_spec h r c hp hn hw
  constructor
  · rintro ⟨i', j', hi', hj', ei', ej', e⟩
    have hii : i' = i := hic i' i hi' hi (by have := ei'.symm.trans ei; injection this)
    have hjj : j' = j := hir j' j hj' hj (by have := ej'.symm.trans ej; injection this)
    subst hii; subst hjj
    exact ⟨i', j', hi, hj, e, hmin⟩
  · rintro ⟨i', j', hi', hj', e, hmin'⟩
    have hii : i' = i := by
      have a := (hmin i' j' hi' hj' e).1
      have b := (hmin' i j1 hi hj1 e1).1
      omega
    have hjj : j' = j := by
      have a := (hmin i' j' hi' hj' e).2
      have b := (hmin' i1 j hi1 hj e2).2
      omega
    subst hii; subst hjj
    exact ⟨i', j', hi, hj, ei, ej, e⟩

/-- C05 when the best candidate is unique. -/
theorem C05_unique_best_partial (h : computeDispMaps invalid cv = .ok out) (r c : Nat) (hp : Pixel cv r c)
    (hw : NoWorst cv r c) (i j : Nat) (hi : UserCol cv i) (hj : UserRow cv j)
    (hbest : IsBest cv.measure (Cand cv r c) (cv.data r c i j))
    (huniq : ∀ i' j', UserCol cv i' → UserRow cv j' → cv.data r c i' j' = cv.data r c i j → i' = i ∧ j' = j) :
    out.col.get r c = .fin (cv.dispCol.get i) ∧ out.row.get r c = .fin (cv.dispRow.get j) ∧
      out.score.get r c = cv.data r c i j := by
  have hn : ¬ NoCand cv r c := fun hn => hbest.1.1 (hn i j hi hj)
  have hb2 := C02_score_is_best invalid cv out h r c hp hn
  have hse : out.score.get r c = cv.data r c i j := by
    have a := hb2.2 _ hbest.1
    have b := hbest.2 _ hb2.1
    have na := (isNaN_false_iff _).2 hb2.1.1
    have nb := (isNaN_false_iff _).2 hbest.1.1
    unfold AtLeastAsGood at a b
    cases hm : cv.measure <;> rw [hm] at a b <;> simp only at a b
    · rw [F.le_iff_not_lt nb na] at a
      rw [F.le_iff_not_lt na nb] at b
      exact F.lt_total na nb (by simpa using a) (by simpa using b)
    · rw [F.le_iff_not_lt na nb] at a
      rw [F.le_iff_not_lt nb na] at b
      exact F.lt_total na nb (by simpa using b) (by simpa using a)
  obtain ⟨i1, j1, hi1, hj1, ei, ej, ⟨j2, hj2, e1⟩, ⟨i2, hi2, e2⟩, _⟩ := pair_spec h r c hp hn hw
  rw [hse] at e1 e2
  have a := (huniq i1 j2 hi1 hj2 e1).1
  have b := (huniq i2 j1 hi2 hj1 e2).2
  subst a; subst b
  exact ⟨ei, ej, hse⟩

/-- The hypotheses of `C05_unique_best_partial` are met by pixel (0, 0) of the example, with its best candidate
(column index 2, row index 1). -/
example : UserCol exCv 2 ∧ UserRow exCv 1 ∧ IsBest exCv.measure (Cand exCv 0 0) (exCv.data 0 0 2 1) ∧
    NoWorst exCv 0 0 ∧
    ∀ i' j', UserCol exCv i' → UserRow exCv j' → exCv.data 0 0 i' j' = exCv.data 0 0 2 1 → i' = 2 ∧ j' = 1 := by
  have hu : ∀ i, UserCol exCv i ↔ 1 ≤ i ∧ i < 3 := by
    intro i; show (1 * 1 ≤ i ∧ i + 1 * 1 < 4) ↔ _; omega
  have hv : ∀ j, UserRow exCv j ↔ j < 2 := by
    intro j; show (0 * 1 ≤ j ∧ j + 1 * 1 < 3) ↔ _; omega
  have hd : ∀ i j, UserCol exCv i → UserRow exCv j → exCv.data 0 0 i j = .nan ∨ exCv.data 0 0 i j = .fin 5 ∨
      (exCv.data 0 0 i j = .fin 3 ∧ i = 2 ∧ j = 1) := by
    intro i j hi hj
    rw [hu] at hi; rw [hv] at hj
    show exData 0 0 i j = _ ∨ exData 0 0 i j = _ ∨ (exData 0 0 i j = _ ∧ _)
    unfold exData
    simp only [if_true]
    split_ifs with a b d
    · simp
    · simp [b]
    · omega
    · simp
  refine ⟨(hu 2).2 (by omega), (hv 1).2 (by omega), ⟨⟨by decide, 2, 1, (hu 2).2 (by omega), (hv 1).2 (by omega), rfl⟩, ?_⟩, ?_, ?_⟩
  · rintro x ⟨hx, i, j, hi, hj, rfl⟩
    show F.le (.fin 3) _ = true
    rcases hd i j hi hj with e | e | ⟨e, _⟩
    · exact absurd e hx
    · rw [e]; decide
    · rw [e]; decide
  · intro i j hi hj
    show _ ≠ F.pinf
    rcases hd i j hi hj with e | e | ⟨e, _⟩ <;> rw [e] <;> simp
  · intro i j hi hj e
    have e' : exCv.data 0 0 i j = .fin 3 := e
    rcases hd i j hi hj with a | a | ⟨_, a⟩
    · rw [a] at e'; cases e'
    · rw [a] at e'; simp at e'
    · exact a

/-! ## C06 — ties are broken towards the lowest disparity of each axis -/

/-- C06: on increasing axes, the column (row) disparity of a valid pixel is the lowest column (row) disparity of the user's
range for which some candidate attains the score. -/
theorem C06_lowest_disparity (h : computeDispMaps invalid cv = .ok out) (r c : Nat) (hp : Pixel cv r c)
    (hn : ¬ NoCand cv r c) (hw : NoWorst cv r c)
    (hmc : ∀ i i', i < i' → i' < cv.dispCol.n → cv.dispCol.get i < cv.dispCol.get i')
    (hmr : ∀ j j', j < j' → j' < cv.dispRow.n → cv.dispRow.get j < cv.dispRow.get j') :
    ∃ dc dr, out.col.get r c = .fin dc ∧ out.row.get r c = .fin dr ∧
      (∃ i j, UserCol cv i ∧ UserRow cv j ∧ cv.dispCol.get i = dc ∧ cv.data r c i j = out.score.get r c) ∧
      (∃ i j, UserCol cv i ∧ UserRow cv j ∧ cv.dispRow.get j = dr ∧ cv.data r c i j = out.score.get r c) ∧
      (∀ i j, UserCol cv i → UserRow cv j → cv.data r c i j = out.score.get r c →
        dc ≤ cv.dispCol.get i ∧ dr ≤ cv.dispRow.get j) := by
  obtain ⟨i, j, hi, hj, ei, ej, ⟨j1, hj1, e1⟩, ⟨i1, hi1, e2⟩, hmin⟩ := pair_spec h r c hp hn hw
  refine ⟨_, _, ei, ej, ⟨i, j1, hi, hj1, rfl, e1⟩, ⟨i1, j, hi1, hj, rfl, e2⟩, ?_⟩
  intro i' j' hi' hj' e
  obtain ⟨a, b⟩ := hmin i' j' hi' hj' e
  have hci : i' < cv.dispCol.n := by
    unfold UserCol at hi'; cases hm : cv.margins <;> rw [hm] at hi' <;> simp only at hi' <;> omega
  have hcj : j' < cv.dispRow.n := by
    unfold UserRow at hj'; cases hm : cv.margins <;> rw [hm] at hj' <;> simp only at hj' <;> omega
  constructor
  · rcases Nat.lt_or_eq_of_le a with a | a
    · exact le_of_lt (hmc i i' a hci)
    · rw [a]
  · rcases Nat.lt_or_eq_of_le b with b | b
    · exact le_of_lt (hmr j j' b hcj)
    · rw [b]

/-- On the anti-diagonal tie the lowest disparity of each axis is returned: the hypotheses hold for `tieCv`. -/
example : ¬ NoCand tieCv 0 0 ∧ NoWorst tieCv 0 0 ∧
    (∀ i i', i < i' → i' < tieCv.dispCol.n → tieCv.dispCol.get i < tieCv.dispCol.get i') := by
  refine ⟨?_, ?_, ?_⟩
  · intro hn
    have := hn 0 0 (by show 0 < 2; omega) (by show 0 < 2; omega)
    revert this; decide
  · intro i j _ _ e
    revert e
    show (if i = j then (.fin 1 : F ℤ) else .fin 0) = .pinf → False
    split_ifs <;> simp
  · intro i i' h _
    show (i : ℤ) < (i' : ℤ)
    omega

/-! ## C07 — the caller's volume is left untouched -/

/-- C07: after the call the caller's cost volumes hold exactly what they held before, in the branch which works on a view
as in the one which works on a copy. -/
theorem C07_cost_volumes_unchanged (h : computeDispMaps invalid cv = .ok out) : out.after = cv.data :=
  (char_of_ok h).2.2.1

/-- The example goes through the view branch, and overwrites NaN cells temporarily. -/
example : isView exCv = true ∧ (∃ r c i j, exCv.data r c i j = .nan ∧
    setWhere exCv exCv.data (userWindow exCv)
      (fun r c i j => ((view exCv exCv.data (userWindow exCv)).get r c i j).isNaN) .pinf r c i j ≠ .nan) := by
  refine ⟨by decide, 0, 0, 1, 1, by decide, by decide⟩

end

end Verif.Props
