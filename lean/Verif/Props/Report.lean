import Verif.Props.Statistics
import Verif.Props.Disparity

/-!
# Property C69: the reported ratios count the pixels having a candidate
-/

set_option linter.unusedSectionVars false

namespace Verif.Props

open Verif Verif.Statistics Verif.Spec Verif.OpticalFlow Verif.Disparity

variable {K : Type} [Field K] [LinearOrder K] [IsStrictOrderedRing K]

open Classical in
/-- Number of pixels which have a candidate in the user's range. -/
noncomputable def pixelsWithCandidate (cv : CostVolumes K) : Nat :=
  ((List.range (cv.row.n * cv.col.n)).filter fun k => decide (¬ NoCand cv (k / cv.col.n) (k % cv.col.n))).length

/-- The ratio of a map whose cells are the invalid value at the pixels without candidate and other finite values elsewhere. -/
theorem ratio_of_map (sqrt : F K → F K) (cv : CostVolumes K) (invalid : F K) (m : Arr2 (F K)) (hh : m.h = cv.row.n)
    (hw : m.w = cv.col.n) (hp : 0 < cv.row.n ∧ 0 < cv.col.n)
    (hno : ∀ r < cv.row.n, ∀ c < cv.col.n, NoCand cv r c → m.get r c = invalid)
    (hyes : ∀ r < cv.row.n, ∀ c < cv.col.n, ¬ NoCand cv r c → ∃ x, m.get r c = .fin x ∧ F.fin x ≠ invalid) :
    (computeStatistics sqrt (cells m) (some invalid)).ratio =
      .fin ((pixelsWithCandidate cv : K) / ((cv.row.n * cv.col.n : Nat) : K)) := by
  classical
  have hlen : (cells m).length = cv.row.n * cv.col.n := by simp [cells, hh, hw]
  have hpos : 0 < cv.row.n * cv.col.n := Nat.mul_pos hp.1 hp.2
  have hk : ∀ k ∈ List.range (cv.row.n * cv.col.n), k / cv.col.n < cv.row.n ∧ k % cv.col.n < cv.col.n := by
    intro k hk
    rw [List.mem_range] at hk
    exact ⟨(Nat.div_lt_iff_lt_mul hp.2).2 hk, Nat.mod_lt _ hp.2⟩
  rw [C55_ratio_partial (sqrt := sqrt)]
  · rw [hlen]
    congr 3
    unfold cells pixelsWithCandidate
    rw [List.filter_map, List.length_map, hh, hw]
    congr 1
    apply List.filter_congr
    intro k hkr
    obtain ⟨h1, h2⟩ := hk k hkr
    rw [Bool.eq_iff_iff]
    simp only [Function.comp_apply, decide_eq_true_eq]
    constructor
    · intro hv hn
      exact hv.2 (by rw [hno _ h1 _ h2 hn])
    · intro hn
      obtain ⟨x, hx, hne⟩ := hyes _ h1 _ h2 hn
      rw [hx]
      exact ⟨by simp, by simpa using hne⟩
  · intro h0
    rw [h0] at hlen
    simp at hlen
    omega
  · by_cases hi : invalid = .nan
    · exact Or.inr (Or.inl (by rw [hi]))
    · right; right
      intro hmem
      unfold cells at hmem
      rw [hh, hw] at hmem
      obtain ⟨k, hkr, he⟩ := List.mem_map.1 hmem
      obtain ⟨h1, h2⟩ := hk k hkr
      by_cases hn : NoCand cv (k / cv.col.n) (k % cv.col.n)
      · rw [hno _ h1 _ h2 hn] at he; exact hi he
      · obtain ⟨x, hx, -⟩ := hyes _ h1 _ h2 hn
        rw [hx] at he
        simp at he

/-- C69: after the disparity computation the two reported ratios are the proportion of the pixels which have a candidate, when the invalid
value is not a disparity of the range. -/
theorem C69_reported_ratio (sqrt : F K → F K) {invalid : F K} {cv : CostVolumes K} {out : DispOut K}
    (h : computeDispMaps invalid cv = .ok out) (hp : 0 < cv.row.n ∧ 0 < cv.col.n)
    (hcol : ∀ i, UserCol cv i → F.fin (cv.dispCol.get i) ≠ invalid)
    (hrow : ∀ j, UserRow cv j → F.fin (cv.dispRow.get j) ≠ invalid) :
    (reportDisparities sqrt out.row out.col invalid).1.ratio =
        .fin ((pixelsWithCandidate cv : K) / ((cv.row.n * cv.col.n : Nat) : K)) ∧
    (reportDisparities sqrt out.row out.col invalid).2.ratio =
        .fin ((pixelsWithCandidate cv : K) / ((cv.row.n * cv.col.n : Nat) : K)) := by
  obtain ⟨h1, h2⟩ := window_pos_of_ok h
  obtain ⟨out', ho, sc, sr, -⟩ := computeDispMaps_char invalid cv h1 h2
  rw [h] at ho
  cases ho
  have hc := fun r hr c hc => C03_invalid_iff_no_candidate invalid cv out h r c ⟨hr, hc⟩
  constructor
  · refine ratio_of_map sqrt cv invalid out.row sr.1 sr.2 hp (fun r hr c hc' hn => ((hc r hr c hc').1 hn).2.1) ?_
    intro r hr c hc' hn
    obtain ⟨-, ⟨j, hj, e⟩, -⟩ := (hc r hr c hc').2 hn
    exact ⟨_, e, hrow j hj⟩
  · refine ratio_of_map sqrt cv invalid out.col sc.1 sc.2 hp (fun r hr c hc' hn => ((hc r hr c hc').1 hn).1) ?_
    intro r hr c hc' hn
    obtain ⟨⟨i, hi, e⟩, -⟩ := (hc r hr c hc').2 hn
    exact ⟨_, e, hcol i hi⟩

/-- Example: two pixels, the second one without candidate. -/
def halfCv : CostVolumes ℚ where
  row := ⟨1, fun _ => 0⟩
  col := ⟨2, fun i => i⟩
  dispCol := ⟨2, fun i => i⟩
  dispRow := ⟨1, fun _ => 0⟩
  data := fun _ c i _ => if c = 0 then .fin i else .nan
  margins := none
  subpixel := 1
  measure := .min

/-- Non-vacuity of C69: the ratio of the example is one half. -/
example : (computeDispMaps (.fin (-9999)) halfCv).toOption.map
    (fun o => (reportDisparities id o.row o.col (.fin (-9999))).1.ratio) = some (F.fin (1 / 2)) := by decide +kernel

example : (∀ i, UserCol halfCv i → F.fin (halfCv.dispCol.get i) ≠ .fin (-9999)) ∧
    ∀ j, UserRow halfCv j → F.fin (halfCv.dispRow.get j) ≠ .fin (-9999) := by
  constructor
  · intro i _ h
    have : ((i : Nat) : ℚ) = -9999 := F.fin.inj h
    have h0 : (0 : ℚ) ≤ ((i : Nat) : ℚ) := Nat.cast_nonneg i
    linarith
  · intro j _ h
    have : (0 : ℚ) = -9999 := F.fin.inj h
    norm_num at this

end Verif.Props
