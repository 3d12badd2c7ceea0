import Verif.Py.FloatLemmas
import Verif.Lemmas.Split
import Verif.Spec.Disparity

/-! Characterisation of `compute_disp_maps`. -/

set_option linter.unusedSectionVars false

namespace Verif.Disparity
open Verif
variable {K : Type} [LinearOrder K]

theorem splitLoop_arange {β γ : Type} (g : β → γ) (a : Arr2 β) (n1 n2 : Nat)
    (out : Arr2 γ) (h1 : out.h = a.h) (h2 : out.w = a.w) :
    ∃ out', splitLoop g a (arange100 n1) (arange100 n2) out = .ok out' ∧ out'.h = a.h ∧ out'.w = a.w ∧
      ∀ i < a.h, ∀ j < a.w, out'.get i j = g (a.get i j) :=
  splitLoop_spec g a _ _ (arange100_sorted _) (arange100_sorted _) out h1 h2

/-- Cost with NaN replaced by the worst infinity. -/
def clean (m : Measure) (x : F K) : F K := if x.isNaN then m.worst else x

theorem clean_not_nan (m : Measure) (x : F K) : (clean m x).isNaN = false := by
  unfold clean; split_ifs with h
  · exact m.worst_not_nan
  · simpa using h

theorem clean_of_not_nan (m : Measure) {x : F K} (h : x.isNaN = false) : clean m x = x := by
  simp [clean, h]

/-- The cost surface read by the reductions. -/
def surf (cv : CostVolumes K) (r c i j : Nat) : F K :=
  clean cv.measure (cv.data r c ((userWindow cv).c0 + i) ((userWindow cv).r0 + j))

/-- Unsplit description of the maps at an index. -/
def rowBest (cv : CostVolumes K) (r c j : Nat) : F K :=
  cv.measure.ext ((List.range (userWindow cv).nc).map fun i => surf cv r c i j)

def colBest (cv : CostVolumes K) (r c i : Nat) : F K :=
  cv.measure.ext ((List.range (userWindow cv).nr).map fun j => surf cv r c i j)

def rowArg (cv : CostVolumes K) (r c : Nat) : Nat :=
  cv.measure.arg ((List.range (userWindow cv).nr).map fun j => rowBest cv r c j)

def colArg (cv : CostVolumes K) (r c : Nat) : Nat :=
  cv.measure.arg ((List.range (userWindow cv).nc).map fun i => colBest cv r c i)

def best (cv : CostVolumes K) (r c : Nat) : F K :=
  cv.measure.ext ((List.range (userWindow cv).nc).map fun i => colBest cv r c i)

def bad (cv : CostVolumes K) (r c : Nat) : Bool :=
  (List.range (userWindow cv).nc).all fun i => (List.range (userWindow cv).nr).all fun j =>
    (cv.data r c ((userWindow cv).c0 + i) ((userWindow cv).r0 + j)).isNaN

theorem restore (cv : CostVolumes K) (w : Window) (v : F K) :
    setWhere cv (setWhere cv cv.data w (fun r c i j => ((view cv cv.data w).get r c i j).isNaN) v) w
      (fun r c i j => ((view cv cv.data w).get r c i j).isNaN) .nan = cv.data := by
  funext r c i j
  unfold setWhere view
  simp only
  split_ifs with h
  · obtain ⟨_, _, h1, _, h2, _, h3⟩ := h
    have e1 : w.c0 + (i - w.c0) = i := by omega
    have e2 : w.r0 + (j - w.r0) = j := by omega
    rw [e1, e2] at h3
    cases hd : cv.data r c i j <;> simp_all [F.isNaN]
  · rfl

theorem computeDispMaps_char (invalid : F K) (cv : CostVolumes K)
    (hnc : 0 < (userWindow cv).nc) (hnr : 0 < (userWindow cv).nr) :
    ∃ out, computeDispMaps invalid cv = .ok out ∧
      (out.col.h = cv.row.n ∧ out.col.w = cv.col.n) ∧ (out.row.h = cv.row.n ∧ out.row.w = cv.col.n) ∧
      (out.score.h = cv.row.n ∧ out.score.w = cv.col.n) ∧ out.after = cv.data ∧
      ∀ r < cv.row.n, ∀ c < cv.col.n,
        out.col.get r c = (if bad cv r c then invalid else .fin (cv.dispCol.get ((userWindow cv).c0 + colArg cv r c))) ∧
        out.row.get r c = (if bad cv r c then invalid else .fin (cv.dispRow.get ((userWindow cv).r0 + rowArg cv r c))) ∧
        out.score.get r c = (if bad cv r c then invalid else best cv r c) := by
  have hnc' : (userWindow cv).nc ≠ 0 := by omega
  have hnr' : (userWindow cv).nr ≠ 0 := by omega
  set w := userWindow cv with hw
  set mask : Nat → Nat → Nat → Nat → Bool := fun r c i j => ((view cv cv.data w).get r c i j).isNaN with hmask
  set user := view cv (setWhere cv cv.data w mask cv.measure.worst) w with huser
  have hus : ∀ r < cv.row.n, ∀ c < cv.col.n, ∀ i < w.nc, ∀ j < w.nr, user.get r c i j = surf cv r c i j := by
    intro r hr c hc i hi j hj
    simp only [huser, view, setWhere, surf, clean, hmask, ← hw]
    have e1 : w.c0 + i - w.c0 = i := by omega
    have e2 : w.r0 + j - w.r0 = j := by omega
    rw [e1, e2]
    by_cases hn : (cv.data r c (w.c0 + i) (w.r0 + j)).isNaN = true
    · rw [if_pos ⟨hr, hc, by omega, by omega, by omega, by omega, hn⟩, if_pos hn]
    · rw [if_neg (fun h => hn h.2.2.2.2.2.2), if_neg hn]
  obtain ⟨mapsCol, h1, h1h, h1w, h1g⟩ := splitLoop_arange
    (fun (s : Nat → Nat → F K) j => cv.measure.ext ((List.range w.nc).map fun i => s i j)) user user.w user.h
    ⟨user.h, user.w, fun _ _ _ => .nan⟩ rfl rfl
  obtain ⟨rowIdx, h2, h2h, h2w, h2g⟩ := splitLoop_arange
    (fun (s : Nat → F K) => cv.measure.arg ((List.range w.nr).map s)) mapsCol mapsCol.h mapsCol.w
    ⟨mapsCol.h, mapsCol.w, fun _ _ => 0⟩ rfl rfl
  obtain ⟨mapsRow, h3, h3h, h3w, h3g⟩ := splitLoop_arange
    (fun (s : Nat → Nat → F K) i => cv.measure.ext ((List.range w.nr).map fun j => s i j)) user user.w user.h
    ⟨user.h, user.w, fun _ _ _ => .nan⟩ rfl rfl
  obtain ⟨colIdx, h4, h4h, h4w, h4g⟩ := splitLoop_arange
    (fun (s : Nat → F K) => cv.measure.arg ((List.range w.nc).map s)) mapsRow mapsRow.h mapsRow.w
    ⟨mapsRow.h, mapsRow.w, fun _ _ => 0⟩ rfl rfl
  obtain ⟨score, h5, h5h, h5w, h5g⟩ := splitLoop_arange
    (fun (s : Nat → F K) => cv.measure.ext ((List.range w.nc).map s)) mapsRow mapsRow.h mapsRow.w
    ⟨mapsRow.h, mapsRow.w, fun _ _ => .nan⟩ rfl rfl
  have huh : user.h = cv.row.n := rfl
  have huw : user.w = cv.col.n := rfl
  have e1 : extremaSplitCol cv.measure user w.nc = .ok mapsCol := by
    unfold extremaSplitCol; rw [if_neg hnc', h1]
  have e2 : argSplit cv.measure mapsCol w.nr = .ok rowIdx := by
    unfold argSplit; rw [if_neg hnr', h2]
  have e3 : extremaSplitRow cv.measure user w.nr = .ok mapsRow := by
    unfold extremaSplitRow; rw [if_neg hnr', h3]
  have e4 : argSplit cv.measure mapsRow w.nc = .ok colIdx := by
    unfold argSplit; rw [if_neg hnc', h4]
  have e5 : getScore cv.measure mapsRow w.nc = .ok score := by
    unfold getScore; rw [if_neg hnc', h5]
  refine ⟨{
    col := ⟨colIdx.h, colIdx.w, fun r c =>
      if allNaN w mask r c then invalid else .fin (cv.dispCol.get (w.c0 + colIdx.get r c))⟩
    row := ⟨rowIdx.h, rowIdx.w, fun r c =>
      if allNaN w mask r c then invalid else .fin (cv.dispRow.get (w.r0 + rowIdx.get r c))⟩
    score := ⟨score.h, score.w, fun r c => if allNaN w mask r c then invalid else score.get r c⟩
    after := if isView cv then setWhere cv (setWhere cv cv.data w mask cv.measure.worst) w mask .nan else cv.data },
    ?_, ?_⟩
  · unfold computeDispMaps
    simp only [← hw, ← hmask, ← huser, e1, e2, e3, e4, e5, bind, Except.bind, pure, Except.pure]
  · refine ⟨⟨by simp only; omega, by simp only; omega⟩, ⟨by simp only; omega, by simp only; omega⟩,
      ⟨by simp only; omega, by simp only; omega⟩, ?_, ?_⟩
    · simp only
      split_ifs
      · exact restore cv w _
      · rfl
    · intro r hr c hc
      have hbad : allNaN w mask r c = bad cv r c := rfl
      have hcolm : ∀ i < w.nc, mapsRow.get r c i = colBest cv r c i := by
        intro i hi
        rw [h3g r (by omega) c (by omega)]
        unfold colBest
        apply congrArg cv.measure.ext
        apply List.map_congr_left
        intro j hj
        exact hus r hr c hc i hi j (by simpa using hj)
      have hrowm : ∀ j < w.nr, mapsCol.get r c j = rowBest cv r c j := by
        intro j hj
        rw [h1g r (by omega) c (by omega)]
        unfold rowBest
        apply congrArg cv.measure.ext
        apply List.map_congr_left
        intro i hi
        exact hus r hr c hc i (by simpa using hi) j hj
      refine ⟨?_, ?_, ?_⟩
      · simp only [hbad]
        rw [h4g r (by omega) c (by omega)]
        have : cv.measure.arg ((List.range w.nc).map (mapsRow.get r c)) = colArg cv r c := by
          unfold colArg
          congr 1
          apply List.map_congr_left
          intro i hi
          exact hcolm i (by simpa using hi)
        rw [this]
      · simp only [hbad]
        rw [h2g r (by omega) c (by omega)]
        have : cv.measure.arg ((List.range w.nr).map (mapsCol.get r c)) = rowArg cv r c := by
          unfold rowArg
          congr 1
          apply List.map_congr_left
          intro i hi
          exact hrowm i (by simpa using hi)
        rw [this]
      · simp only [hbad]
        rw [h5g r (by omega) c (by omega)]
        have : cv.measure.ext ((List.range w.nc).map (mapsRow.get r c)) = best cv r c := by
          unfold best
          congr 1
          apply List.map_congr_left
          intro i hi
          exact hcolm i (by simpa using hi)
        rw [this]

/-! ### The window is the user's range -/

theorem userWindow_col (cv : CostVolumes K) (i : Nat) :
    Spec.UserCol cv i ↔ (userWindow cv).c0 ≤ i ∧ i < (userWindow cv).c0 + (userWindow cv).nc := by
  unfold Spec.UserCol userWindow
  cases hm : cv.margins with
  | none => simp
  | some mg =>
    simp only
    by_cases h0 : mg = ⟨0, 0, 0, 0⟩
    · rw [if_pos h0]; subst h0; simp
    · rw [if_neg h0]
      simp only
      generalize hl : mg.left * cv.subpixel = l
      generalize hr : mg.right * cv.subpixel = rr
      have hl' : ((mg.left : Int) * (cv.subpixel : Int)) = (l : Int) := by rw [← hl]; push_cast; ring
      have hr' : ((mg.right : Int) * (cv.subpixel : Int)) = (rr : Int) := by rw [← hr]; push_cast; ring
      rw [hl', hr']
      unfold sliceStart sliceLen clampIdx
      split_ifs <;> omega

theorem userWindow_row (cv : CostVolumes K) (j : Nat) :
    Spec.UserRow cv j ↔ (userWindow cv).r0 ≤ j ∧ j < (userWindow cv).r0 + (userWindow cv).nr := by
  unfold Spec.UserRow userWindow
  cases hm : cv.margins with
  | none => simp
  | some mg =>
    simp only
    by_cases h0 : mg = ⟨0, 0, 0, 0⟩
    · rw [if_pos h0]; subst h0; simp
    · rw [if_neg h0]
      simp only
      generalize hl : mg.up * cv.subpixel = l
      generalize hr : mg.down * cv.subpixel = rr
      have hl' : ((mg.up : Int) * (cv.subpixel : Int)) = (l : Int) := by rw [← hl]; push_cast; ring
      have hr' : ((mg.down : Int) * (cv.subpixel : Int)) = (rr : Int) := by rw [← hr]; push_cast; ring
      rw [hl', hr']
      unfold sliceStart sliceLen clampIdx
      split_ifs <;> omega

/-! ### Optimality -/

section
variable (cv : CostVolumes K) (r c : Nat) (hnc : 0 < (userWindow cv).nc) (hnr : 0 < (userWindow cv).nr)
include hnc hnr

theorem surf_not_nan (i j : Nat) : (surf cv r c i j).isNaN = false := clean_not_nan _ _

theorem colBest_spec (i : Nat) :
    (∃ j < (userWindow cv).nr, colBest cv r c i = surf cv r c i j) ∧
      ∀ j < (userWindow cv).nr, cv.measure.better (surf cv r c i j) (colBest cv r c i) = false :=
  cv.measure.ext_map_spec _ _ hnr (fun _ _ => clean_not_nan _ _)

theorem rowBest_spec (j : Nat) :
    (∃ i < (userWindow cv).nc, rowBest cv r c j = surf cv r c i j) ∧
      ∀ i < (userWindow cv).nc, cv.measure.better (surf cv r c i j) (rowBest cv r c j) = false :=
  cv.measure.ext_map_spec (fun i => surf cv r c i j) _ hnc (fun _ _ => clean_not_nan _ _)

theorem colBest_not_nan (i : Nat) : (colBest cv r c i).isNaN = false := by
  obtain ⟨⟨j, _, h⟩, _⟩ := colBest_spec cv r c hnc hnr i
  rw [h]; exact clean_not_nan _ _

theorem rowBest_not_nan (j : Nat) : (rowBest cv r c j).isNaN = false := by
  obtain ⟨⟨i, _, h⟩, _⟩ := rowBest_spec cv r c hnc hnr j
  rw [h]; exact clean_not_nan _ _

theorem best_spec :
    (∃ i < (userWindow cv).nc, ∃ j < (userWindow cv).nr, best cv r c = surf cv r c i j) ∧
      ∀ i < (userWindow cv).nc, ∀ j < (userWindow cv).nr,
        cv.measure.better (surf cv r c i j) (best cv r c) = false := by
  obtain ⟨⟨i, hi, he⟩, hb⟩ := cv.measure.ext_map_spec (fun i => colBest cv r c i) _ hnc
    (fun i _ => colBest_not_nan cv r c hnc hnr i)
  refine ⟨?_, ?_⟩
  · obtain ⟨⟨j, hj, h⟩, _⟩ := colBest_spec cv r c hnc hnr i
    exact ⟨i, hi, j, hj, by rw [← h]; exact he⟩
  · intro i' hi' j' hj'
    exact cv.measure.not_better_trans (colBest_not_nan cv r c hnc hnr i')
      ((colBest_spec cv r c hnc hnr i').2 j' hj') (hb i' hi')

theorem best_not_nan : (best cv r c).isNaN = false := by
  obtain ⟨⟨i, _, j, _, h⟩, _⟩ := best_spec cv r c hnc hnr
  rw [h]; exact clean_not_nan _ _

/-- The column index is the first one which attains the best value. -/
theorem colArg_spec :
    colArg cv r c < (userWindow cv).nc ∧
      (∃ j < (userWindow cv).nr, surf cv r c (colArg cv r c) j = best cv r c) ∧
      ∀ i < colArg cv r c, ∀ j < (userWindow cv).nr, surf cv r c i j ≠ best cv r c := by
  obtain ⟨h1, h2, h3⟩ := cv.measure.arg_spec (fun i => colBest cv r c i) _ hnc
    (fun i _ => colBest_not_nan cv r c hnc hnr i)
  have hbest : colBest cv r c (colArg cv r c) = best cv r c := by
    obtain ⟨⟨i, hi, he⟩, hb⟩ := cv.measure.ext_map_spec (fun i => colBest cv r c i) _ hnc
      (fun i _ => colBest_not_nan cv r c hnc hnr i)
    apply cv.measure.better_total (colBest_not_nan cv r c hnc hnr _) (best_not_nan cv r c hnc hnr)
    · exact hb _ h1
    · have : best cv r c = colBest cv r c i := he
      rw [this]; exact h2 i hi
  refine ⟨h1, ?_, ?_⟩
  · obtain ⟨⟨j, hj, h⟩, _⟩ := colBest_spec cv r c hnc hnr (colArg cv r c)
    exact ⟨j, hj, by rw [← h, hbest]⟩
  · intro i hi j hj heq
    have hb := h3 i hi
    have := (colBest_spec cv r c hnc hnr i).2 j hj
    rw [heq] at this
    have hb' : cv.measure.better (best cv r c) (colBest cv r c i) = true := by
      rw [← hbest]; exact hb
    rw [hb'] at this; cases this

/-- The row index is the first one which attains the best value. -/
theorem rowArg_spec :
    rowArg cv r c < (userWindow cv).nr ∧
      (∃ i < (userWindow cv).nc, surf cv r c i (rowArg cv r c) = best cv r c) ∧
      ∀ j < rowArg cv r c, ∀ i < (userWindow cv).nc, surf cv r c i j ≠ best cv r c := by
  obtain ⟨h1, h2, h3⟩ := cv.measure.arg_spec (fun j => rowBest cv r c j) _ hnr
    (fun j _ => rowBest_not_nan cv r c hnc hnr j)
  obtain ⟨⟨i0, hi0, j0, hj0, he⟩, hb⟩ := best_spec cv r c hnc hnr
  have hbest : rowBest cv r c (rowArg cv r c) = best cv r c := by
    apply cv.measure.better_total (rowBest_not_nan cv r c hnc hnr _) (best_not_nan cv r c hnc hnr)
    · obtain ⟨⟨i, hi, h⟩, _⟩ := rowBest_spec cv r c hnc hnr (rowArg cv r c)
      rw [h]; exact hb i hi _ h1
    · have h' := (rowBest_spec cv r c hnc hnr j0).2 i0 hi0
      rw [← he] at h'
      exact cv.measure.not_better_trans (rowBest_not_nan cv r c hnc hnr j0) h' (h2 j0 hj0)
  refine ⟨h1, ?_, ?_⟩
  · obtain ⟨⟨i, hi, h⟩, _⟩ := rowBest_spec cv r c hnc hnr (rowArg cv r c)
    exact ⟨i, hi, by rw [← h, hbest]⟩
  · intro j hj i hi heq
    have hb := h3 j hj
    have := (rowBest_spec cv r c hnc hnr j).2 i hi
    rw [heq] at this
    have hb' : cv.measure.better (best cv r c) (rowBest cv r c j) = true := by
      rw [← hbest]; exact hb
    rw [hb'] at this; cases this

end

theorem bad_iff (cv : CostVolumes K) (r c : Nat) : bad cv r c = true ↔ Spec.NoCand cv r c := by
  unfold bad Spec.NoCand
  simp only [List.all_eq_true, List.mem_range]
  constructor
  · intro h i j hi hj
    rw [userWindow_col] at hi
    rw [userWindow_row] at hj
    have := h (i - (userWindow cv).c0) (by omega) (j - (userWindow cv).r0) (by omega)
    rw [show (userWindow cv).c0 + (i - (userWindow cv).c0) = i by omega,
      show (userWindow cv).r0 + (j - (userWindow cv).r0) = j by omega] at this
    cases hd : cv.data r c i j <;> simp_all [F.isNaN]
  · intro h i hi j hj
    rw [h _ _ ((userWindow_col cv _).2 (by omega)) ((userWindow_row cv _).2 (by omega))]
    rfl

theorem isNaN_iff (x : F K) : x.isNaN = true ↔ x = .nan := by cases x <;> simp [F.isNaN]

theorem isNaN_false_iff (x : F K) : x.isNaN = false ↔ x ≠ .nan := by cases x <;> simp [F.isNaN]

end Verif.Disparity
