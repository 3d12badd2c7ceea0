import Verif.Props.Interpolation
import Mathlib.Tactic.LinearCombination
import Mathlib.Data.Rat.Floor

/-!
# Properties C54 (what fails), C67, C68: values of the interpolation refinement
-/

set_option linter.unusedSectionVars false

namespace Verif.Props

open Verif Verif.Disparity Verif.Interpolation Verif.Spec Verif.OpticalFlow

variable {K : Type} [Field K] [LinearOrder K] [IsStrictOrderedRing K]
variable {e : IExt K} {cv : CostVolumes K} {rowMap colMap : Arr2 (F K)} {oc orr os : Arr2 (F K)}

/-! ## C68: the missing costs -/

/-- Finite value of an interval. -/
def Between (lo hi : K) (v : F K) : Prop := ∃ x, v = .fin x ∧ lo ≤ x ∧ x ≤ hi

theorem npInterp_between (lo hi : K) (x : Nat) : ∀ l : List (Nat × F K), l ≠ [] → (∀ p ∈ l, Between lo hi p.2) →
    Between lo hi (npInterp x l)
  | [], h, _ => absurd rfl h
  | [(_, f)], _, h => h (_, f) (List.mem_singleton.2 rfl)
  | (a, f) :: (b, g) :: l, _, h => by
    have hf := h (a, f) (by simp)
    have hg := h (b, g) (by simp)
    have ih := npInterp_between lo hi x ((b, g) :: l) (by simp) (fun p hp => h p (List.mem_cons_of_mem _ hp))
    unfold npInterp
    split_ifs with h1 h2 h3
    · exact hf
    · exact ih
    · exact hf
    · obtain ⟨u, hu, u1, u2⟩ := hf
      obtain ⟨v, hv, v1, v2⟩ := hg
      simp only at hu hv
      subst hu hv
      have hab : (0 : K) < (b : K) - (a : K) := sub_pos.2 (Nat.cast_lt.2 (by omega))
      have t0 : 0 ≤ ((x : K) - (a : K)) / ((b : K) - (a : K)) :=
        div_nonneg (sub_nonneg.2 (Nat.cast_le.2 (by omega))) hab.le
      have t1 : ((x : K) - (a : K)) / ((b : K) - (a : K)) ≤ 1 := by
        rw [div_le_one hab]
        have : (x : K) ≤ (b : K) := Nat.cast_le.2 (by omega)
        linarith
      generalize ((x : K) - (a : K)) / ((b : K) - (a : K)) = t at t0 t1
      refine ⟨u + (v + -u) * t, rfl, ?_, ?_⟩
      · have : u + (v + -u) * t = lo + ((1 - t) * (u - lo) + t * (v - lo)) := by ring
        rw [this]
        have a1 := mul_nonneg (sub_nonneg.2 t1) (sub_nonneg.2 u1)
        have a2 := mul_nonneg t0 (sub_nonneg.2 v1)
        linarith
      · have : u + (v + -u) * t = hi - ((1 - t) * (hi - u) + t * (hi - v)) := by ring
        rw [this]
        have a1 := mul_nonneg (sub_nonneg.2 t1) (sub_nonneg.2 u2)
        have a2 := mul_nonneg t0 (sub_nonneg.2 v2)
        linarith

/-- C68: before the interpolation the known costs are kept and every NaN receives a value between the lowest and the highest of the
known costs: no NaN is given to `interp2d`. -/
theorem C68_filled (m : Arr2 (F K)) (lo hi : K)
    (hk : ∀ j < m.h, ∀ i < m.w, m.get j i ≠ .nan → Between lo hi (m.get j i))
    (hx : ∃ j < m.h, ∃ i < m.w, m.get j i ≠ .nan) :
    (∀ j i, m.get j i ≠ .nan → (fillNan m).get j i = m.get j i) ∧
    ∀ j < m.h, ∀ i < m.w, Between lo hi ((fillNan m).get j i) := by
  have hnan : ∀ v : F K, v.isNaN = true ↔ v = .nan := by intro v; cases v <;> simp [F.isNaN]
  constructor
  · intro j i h
    simp only [fillNan]
    rw [if_neg (fun hh => h ((hnan _).1 hh))]
  · intro j hj i hi'
    simp only [fillNan]
    split_ifs with h
    · apply npInterp_between
      · obtain ⟨j', hj', i', hi'', h'⟩ := hx
        intro h0
        rw [List.map_eq_nil_iff] at h0
        have : (j', i') ∈ (positions m).filter fun p => !(m.get p.1 p.2).isNaN := by
          rw [List.mem_filter]
          refine ⟨mem_positions.2 ⟨hj', hi''⟩, ?_⟩
          simp only [Bool.not_eq_true']
          exact Bool.eq_false_iff.2 (fun hh => h' ((hnan _).1 hh))
        rw [h0] at this
        simp at this
      · intro p hp
        rw [List.mem_map] at hp
        obtain ⟨q, hq, rfl⟩ := hp
        rw [List.mem_filter] at hq
        obtain ⟨q1, q2⟩ := mem_positions.1 hq.1
        refine hk q.1 q1 q.2 q2 ?_
        intro h0
        have := hq.2
        rw [h0] at this
        simp [F.isNaN] at this
    · exact hk j hj i hi' (fun hh => h ((hnan _).2 hh))

/-- Non-vacuity of C68: a matrix with a hole, filled. -/
example : (fillNan (⟨3, 1, fun j _ => if j = 1 then .nan else .fin ((j : ℚ) + 1)⟩)).get 1 0 = .fin 2 := by decide +kernel

/-! ## C67: the score -/

/-- C67 (partial): when the refined disparity is a sample of the cost surface, the score is the absolute value of its cost. -/
theorem C67_score_at_sample_partial (he : InterpContract e) (hr : rowMap.w = cv.col.n)
    (hc : colMap.h = cv.row.n ∧ colMap.w = cv.col.n)
    (hx : ∀ i j, i < j → j < cv.dispCol.n → cv.dispCol.get i < cv.dispCol.get j)
    (hy : ∀ i j, i < j → j < cv.dispRow.n → cv.dispRow.get i < cv.dispRow.get j)
    (h : Interpolation.refinementMethod e cv rowMap colMap = .ok (oc, orr, os)) (r c : Nat) (hr' : r < cv.row.n)
    (hc' : c < cv.col.n) (i j : Nat) (hi : i < cv.dispCol.n) (hj : j < cv.dispRow.n)
    (ho : oc.get r c = .fin (cv.dispCol.get i)) (hoo : orr.get r c = .fin (cv.dispRow.get j)) (x : K)
    (hd : cv.data r c i j = .fin x) : os.get r c = .fin |x| := by
  have := (C53_own_surface hr hc h).2 r hr' c hc'
  unfold computeCostMatrix at this
  simp only at this
  rw [if_neg] at this
  swap
  · intro hh
    have := (noCost_iff cv r c).1 hh i hi j hj
    rw [hd] at this
    cases hm : cv.measure <;> simp [hm, Measure.worst] at this
  obtain ⟨f, hf, hs⟩ := he cv.dispCol cv.dispRow (fillNan (noInf (signed cv.measure (pixelSurface cv r c))))
    (by cases cv.measure <;> rfl) (by cases cv.measure <;> rfl)
  rw [hf] at this
  simp only at this
  have := Except.ok.inj this
  simp only [Prod.mk.injEq] at this
  obtain ⟨t1, t2, t3⟩ := this
  rw [ho] at t1
  rw [hoo] at t2
  rw [← t3, F.fin.inj t1, F.fin.inj t2, hs hx hy i hi j hj]
  have hv : (noInf (signed cv.measure (pixelSurface cv r c))).get j i =
      .fin (match cv.measure with | .max => -x | .min => x) := by
    cases hm : cv.measure <;>
      simp [noInf, signed, Arr2.map, pixelSurface, hd, F.neg, F.eq]
  have : (fillNan (noInf (signed cv.measure (pixelSurface cv r c)))).get j i =
      .fin (match cv.measure with | .max => -x | .min => x) := by
    simp only [fillNan]
    rw [hv]
    simp [F.isNaN]
  rw [this]
  cases cv.measure <;> simp [fabs, abs_neg]

/-! ## A concrete solver -/

/-- Position of a value in an axis (0 when absent). -/
def whereIs (a : Arr1 ℚ) (x : ℚ) : Nat := ((List.range a.n).find? fun i => decide (a.get i = x)).getD 0

/-- Points `lo, lo + 1, ...` up to `hi`. -/
def ticks (b : ℚ × ℚ) : List ℚ := (List.range (⌊b.2 - b.1⌋.toNat + 1)).map fun (k : Nat) => b.1 + (k : ℚ)

/-- Lowest value among points, `d` if there is none. -/
def lowest (f : ℚ → ℚ → F ℚ) (d : ℚ × ℚ) (l : List (ℚ × ℚ)) : ℚ × ℚ :=
  l.foldl (fun b p => if F.lt (f p.1 p.2) (f b.1 b.2) then p else b) d

/-- An interpolation which goes through the samples and a minimisation over the points `lo, lo + 1, ...` of the bounds. -/
def exI : IExt ℚ where
  interp2d x y m := .ok fun u v => m.get (whereIs y v) (whereIs x u)
  minimize f _ b := lowest f (b.1.1, b.2.1) ((ticks b.1).flatMap fun u => (ticks b.2).map fun v => (u, v))

theorem whereIs_get (a : Arr1 ℚ) (h : ∀ i j, i < j → j < a.n → a.get i < a.get j) (i : Nat) (hi : i < a.n) :
    whereIs a (a.get i) = i := by
  unfold whereIs
  rcases hf : (List.range a.n).find? (fun k => decide (a.get k = a.get i)) with _ | k
  · rw [List.find?_eq_none] at hf
    have := hf i (List.mem_range.2 hi)
    simp at this
  · have h1 := List.find?_some hf
    have h2 := List.mem_range.1 (List.mem_of_find?_eq_some hf)
    simp only [decide_eq_true_eq] at h1
    simp only [Option.getD_some]
    rcases Nat.lt_trichotomy k i with hlt | heq | hgt
    · have := h k i hlt hi; rw [h1] at this; exact absurd this (lt_irrefl _)
    · exact heq
    · have := h i k hgt h2; rw [h1] at this; exact absurd this (lt_irrefl _)

theorem exI_interp : InterpContract exI := by
  intro x y m _ _
  refine ⟨_, rfl, ?_⟩
  intro hx hy i hi j hj
  rw [whereIs_get x hx i hi, whereIs_get y hy j hj]

theorem lowest_mem (f : ℚ → ℚ → F ℚ) : ∀ (l : List (ℚ × ℚ)) (d : ℚ × ℚ), lowest f d l = d ∨ lowest f d l ∈ l
  | [], d => Or.inl rfl
  | p :: l, d => by
    unfold lowest
    rw [List.foldl_cons]
    have := lowest_mem f l (if F.lt (f p.1 p.2) (f d.1 d.2) then p else d)
    unfold lowest at this
    rcases this with h | h
    · rw [h]
      split_ifs
      · right; simp
      · left; rfl
    · right; exact List.mem_cons_of_mem _ h

theorem ticks_mem {b : ℚ × ℚ} (hb : b.1 ≤ b.2) {u : ℚ} (h : u ∈ ticks b) : b.1 ≤ u ∧ u ≤ b.2 := by
  unfold ticks at h
  rw [List.mem_map] at h
  obtain ⟨k, hk, rfl⟩ := h
  rw [List.mem_range] at hk
  have h0 : 0 ≤ ⌊b.2 - b.1⌋ := Int.floor_nonneg.2 (sub_nonneg.2 hb)
  have h1 : (k : ℤ) ≤ ⌊b.2 - b.1⌋ := by omega
  have h2 : (k : ℚ) ≤ b.2 - b.1 := by
    calc (k : ℚ) = ((k : ℤ) : ℚ) := by push_cast; rfl
      _ ≤ (⌊b.2 - b.1⌋ : ℚ) := Int.cast_le.2 h1
      _ ≤ b.2 - b.1 := Int.floor_le (b.2 - b.1)
  have h3 : (0 : ℚ) ≤ (k : ℚ) := Nat.cast_nonneg k
  constructor <;> linarith

theorem exI_bounds : BoundsContract exI := by
  intro f x0 b h1 h2
  rcases lowest_mem f ((ticks b.1).flatMap fun u => (ticks b.2).map fun v => (u, v)) (b.1.1, b.2.1) with h | h
  · have : exI.minimize f x0 b = (b.1.1, b.2.1) := h
    rw [this]
    exact ⟨le_refl _, h1, le_refl _, h2⟩
  · rw [List.mem_flatMap] at h
    obtain ⟨u, hu, h⟩ := h
    rw [List.mem_map] at h
    obtain ⟨v, hv, h⟩ := h
    have : exI.minimize f x0 b = (u, v) := h.symm
    rw [this]
    exact ⟨(ticks_mem h1 hu).1, (ticks_mem h1 hu).2, (ticks_mem h2 hv).1, (ticks_mem h2 hv).2⟩

/-- A volume of one pixel, user range `[-1, 1]` in both directions and the margins 3 of the interpolation. -/
def oneCv (m : Measure) (d : Nat → Nat → F ℚ) : CostVolumes ℚ where
  row := ⟨1, fun _ => 0⟩
  col := ⟨1, fun _ => 0⟩
  dispCol := ⟨9, fun i => (i : ℚ) - 4⟩
  dispRow := ⟨9, fun i => (i : ℚ) - 4⟩
  data := fun _ _ i j => d i j
  margins := some ⟨3, 3, 3, 3⟩
  subpixel := 1
  measure := m

/-- A map of one pixel. -/
def oneMap (v : ℚ) : Arr2 (F ℚ) := ⟨1, 1, fun _ _ => .fin v⟩

/-- The three refined values of the only pixel. -/
def oneOf : Except Err (Arr2 (F ℚ) × Arr2 (F ℚ) × Arr2 (F ℚ)) → Option (F ℚ × F ℚ × F ℚ)
  | .ok o => some (o.1.get 0 0, o.2.1.get 0 0, o.2.2.get 0 0)
  | .error _ => none

/-- C54, first failure: an invalid pixel marked `-9999` becomes NaN. -/
theorem C54_invalid_lost :
    NoCand (oneCv .min fun _ _ => .nan) 0 0 ∧
    oneOf (Interpolation.refinementMethod exI (oneCv .min fun _ _ => .nan) (oneMap (-9999)) (oneMap (-9999))) =
      some (.nan, .nan, .nan) :=
  ⟨fun _ _ _ _ => rfl, by decide +kernel⟩

/-- C54, second failure: the pixel has a candidate in the user's range `[-1, 1]`, whose best disparity is `(0, 0)`, and the refined column
disparity is `-4`, a margin. -/
theorem C54_outside_range :
    (Disparity.computeDispMaps (.fin (-9999)) (oneCv .min fun i j => .fin (if i = 0 then 0 else 1 + |(i : ℚ) - 4| + |(j : ℚ) - 4|))).toOption.map
        (fun o => (o.col.get 0 0, o.row.get 0 0)) = some (F.fin 0, F.fin 0) ∧
    oneOf (Interpolation.refinementMethod exI (oneCv .min fun i j => .fin (if i = 0 then 0 else 1 + |(i : ℚ) - 4| + |(j : ℚ) - 4|))
      (oneMap 0) (oneMap 0)) = some (.fin (-4), .fin (-4), .fin 0) := by
  constructor <;> decide +kernel

/-- C54, third failure: no candidate of the user's range is computable, but a cost of the margins is, and the invalid pixel receives a
disparity. -/
theorem C54_invalid_refined :
    NoCand (oneCv .min fun i _ => if i = 0 then .fin 5 else .nan) 0 0 ∧
    oneOf (Interpolation.refinementMethod exI (oneCv .min fun i _ => if i = 0 then .fin 5 else .nan) (oneMap (-9999)) (oneMap (-9999))) =
      some (.fin (-4), .fin (-4), .fin 5) := by
  constructor
  · intro i j hi _
    have : 3 * 1 ≤ i := hi.1
    show (if i = 0 then F.fin (5 : ℚ) else .nan) = .nan
    rw [if_neg (by omega)]
  · decide +kernel

/-- C67: for a similarity (`zncc`) the cost of every candidate is `-1/2` and the score is `1/2`. -/
theorem C67_sign_lost :
    (oneOf (Interpolation.refinementMethod exI (oneCv .max fun _ _ => .fin (-1 / 2)) (oneMap 0) (oneMap 0))).map (·.2.2) =
      some (.fin (1 / 2)) := by decide +kernel

/-- C54, the full statement about the ranges, which is false. -/
def C54Statement : Prop :=
  ∀ (e : IExt ℚ) (cv : CostVolumes ℚ) (rowMap colMap oc orr os : Arr2 (F ℚ)), BoundsContract e → InterpContract e →
    rowMap.w = cv.col.n → colMap.h = cv.row.n ∧ colMap.w = cv.col.n →
    Interpolation.refinementMethod e cv rowMap colMap = .ok (oc, orr, os) → ∀ r < cv.row.n, ∀ c < cv.col.n,
      (NoCand cv r c → oc.get r c = colMap.get r c) ∧
      (¬ NoCand cv r c → ∃ x i j, oc.get r c = .fin x ∧ UserCol cv i ∧ UserCol cv j ∧ cv.dispCol.get i ≤ x ∧ x ≤ cv.dispCol.get j)

theorem C54_false : ¬ C54Statement := by
  intro h
  obtain ⟨o, ho⟩ := C53_total (cv := oneCv .min fun _ _ => .nan) (rowMap := oneMap (-9999)) (colMap := oneMap (-9999)) exI_interp
    ⟨rfl, rfl⟩ ⟨by decide, by decide⟩
  obtain ⟨oc, orr, os⟩ := o
  have := (h exI _ _ _ oc orr os exI_bounds exI_interp rfl ⟨rfl, rfl⟩ ho 0 (by decide) 0 (by decide)).1 (fun _ _ _ _ => rfl)
  have h2 := C54_invalid_lost.2
  rw [ho] at h2
  simp only [oneOf, Option.some.injEq, Prod.mk.injEq] at h2
  rw [h2.1] at this
  simp [oneMap] at this

/-- Non-vacuity of C53, C54 and C67: the refinement of a volume with one candidate. -/
example : oneOf (Interpolation.refinementMethod exI (oneCv .max fun i j => if i = 5 ∧ j = 3 then .fin 1 else .fin 0)
    (oneMap 1) (oneMap (-1))) = some (.fin 1, .fin (-1), .fin 1) := by decide +kernel

end Verif.Props
