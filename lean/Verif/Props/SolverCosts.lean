import Verif.Props.InterpolationCases

/-!
# C68: the costs which the solver of the interpolation receives
-/

set_option linter.unusedSectionVars false

namespace Verif.Props

open Verif Verif.Disparity Verif.Interpolation Verif.Spec Verif.OpticalFlow

variable {K : Type} [Field K] [LinearOrder K] [IsStrictOrderedRing K]
variable {e : IExt K} {cv : CostVolumes K} {rowMap colMap : Arr2 (F K)} {oc orr os : Arr2 (F K)}

/-- C68, from the cost volumes: for a pixel with a cost, whose usable costs are numbers (their opposites for a similarity) from `lo` to `hi`, the solver
receives a matrix which holds the usable costs as they are and a number from `lo` to `hi` in every other cell, neither NaN nor an infinity; the refined
values are those found on the surface through this matrix. -/
theorem C68_solver (hr : rowMap.w = cv.col.n) (hc : colMap.h = cv.row.n ∧ colMap.w = cv.col.n)
    (h : Interpolation.refinementMethod e cv rowMap colMap = .ok (oc, orr, os)) (r c : Nat) (hr' : r < cv.row.n) (hc' : c < cv.col.n)
    (lo hi : K) (hx : ¬ NoCost cv r c)
    (hk : ∀ i < cv.dispCol.n, ∀ j < cv.dispRow.n, cv.data r c i j ≠ .nan → cv.data r c i j ≠ cv.measure.worst →
      Between lo hi (toMinimise cv.measure (cv.data r c i j))) :
    ∃ m f, (m.h = cv.dispRow.n ∧ m.w = cv.dispCol.n) ∧
      (∀ i < cv.dispCol.n, ∀ j < cv.dispRow.n, cv.data r c i j ≠ .nan → cv.data r c i j ≠ cv.measure.worst →
        m.get j i = toMinimise cv.measure (cv.data r c i j)) ∧
      (∀ i < cv.dispCol.n, ∀ j < cv.dispRow.n, Between lo hi (m.get j i)) ∧
      e.interp2d cv.dispCol cv.dispRow m = .ok f ∧
      ∃ x y, e.minimize f (colMap.get r c, rowMap.get r c) ((cv.dispCol.get 0, cv.dispCol.get (cv.dispCol.n - 1)),
          (cv.dispRow.get 0, cv.dispRow.get (cv.dispRow.n - 1))) = (x, y) ∧
        oc.get r c = .fin x ∧ orr.get r c = .fin y ∧ os.get r c = fabs (f x y) := by
  have := (C53_own_surface hr hc h).2 r hr' c hc'
  unfold computeCostMatrix at this
  simp only at this
  rw [if_neg (fun hh => hx ((noCost_iff cv r c).1 hh))] at this
  rcases hf : e.interp2d cv.dispCol cv.dispRow (fillNan (noInf (signed cv.measure (pixelSurface cv r c)))) with x | f
  · rw [hf] at this; simp at this
  rw [hf] at this
  simp only at this
  have := Except.ok.inj this
  simp only [Prod.mk.injEq] at this
  set x := noInf (signed cv.measure (pixelSurface cv r c)) with hx'
  have sz : x.h = cv.dispRow.n ∧ x.w = cv.dispCol.n := by rw [hx']; constructor <;> cases cv.measure <;> rfl
  have cell : ∀ i j, x.get j i = if F.eq (toMinimise cv.measure (cv.data r c i j)) .pinf then F.nan else toMinimise cv.measure (cv.data r c i j) := by
    intro i j
    rw [hx']
    cases cv.measure <;> rfl
  have known : ∀ i j, cv.data r c i j ≠ .nan → cv.data r c i j ≠ cv.measure.worst → x.get j i = toMinimise cv.measure (cv.data r c i j) := by
    intro i j h1 h2
    rw [cell, (usable_cell h1 h2).1]
  have used : ∀ i j, x.get j i ≠ .nan → cv.data r c i j ≠ .nan ∧ cv.data r c i j ≠ cv.measure.worst := by
    intro i j q
    rw [cell] at q
    cases hm : cv.measure <;> cases hv : cv.data r c i j <;> simp_all [toMinimise, F.neg, F.eq, Measure.worst]
  have number : ∀ j < x.h, ∀ i < x.w, x.get j i ≠ .nan → Between lo hi (x.get j i) := by
    intro j hj i hi' q
    obtain ⟨u1, u2⟩ := used i j q
    rw [known i j u1 u2]
    exact hk i (by rw [← sz.2]; exact hi') j (by rw [← sz.1]; exact hj) u1 u2
  have some_ : ∃ j < x.h, ∃ i < x.w, x.get j i ≠ .nan := by
    unfold NoCost at hx
    push Not at hx
    obtain ⟨i, hi', j, hj, u1, u2⟩ := hx
    refine ⟨j, by rw [sz.1]; exact hj, i, by rw [sz.2]; exact hi', ?_⟩
    obtain ⟨v, hv, -⟩ := hk i hi' j hj u1 u2
    rw [known i j u1 u2, hv]
    simp
  obtain ⟨f1, f2⟩ := C68_filled x lo hi number some_
  refine ⟨fillNan x, f, sz, fun i hi' j hj u1 u2 => ?_, fun i hi' j hj => f2 j (by rw [sz.1]; exact hj) i (by rw [sz.2]; exact hi'), hf, _, _, rfl,
    this.1.symm, this.2.1.symm, this.2.2.symm⟩
  have e := known i j u1 u2
  obtain ⟨v, hv, -⟩ := hk i hi' j hj u1 u2
  rw [f1 j i (by rw [e, hv]; simp), e]

/-- Non-vacuity: two costs, a missing one and an infinite one; the solver receives numbers from 1 to 5, and the lowest cost is found. -/
example : ∃ oc orr os, Interpolation.refinementMethod exI (oneCv .min fun i j => if i = 4 ∧ j = 4 then .fin 1 else if i = 5 ∧ j = 3 then .fin 5 else
      if i = 0 then .pinf else .nan) (oneMap 0) (oneMap 0) = .ok (oc, orr, os) ∧
    ∃ m f, exI.interp2d ⟨9, fun i => (i : ℚ) - 4⟩ ⟨9, fun i => (i : ℚ) - 4⟩ m = .ok f ∧ m.get 4 4 = .fin 1 ∧ m.get 3 5 = .fin 5 ∧
      (∀ i < 9, ∀ j < 9, Between 1 5 (m.get j i)) ∧ ∃ x y, os.get 0 0 = fabs (f x y) := by
  rcases h : Interpolation.refinementMethod exI (oneCv .min fun i j => if i = 4 ∧ j = 4 then .fin 1 else if i = 5 ∧ j = 3 then .fin 5 else
      if i = 0 then .pinf else .nan) (oneMap 0) (oneMap 0) with x | ⟨oc, orr, os⟩
  · have : (oneOf (Interpolation.refinementMethod exI (oneCv .min fun i j => if i = 4 ∧ j = 4 then .fin 1 else if i = 5 ∧ j = 3 then .fin 5 else
      if i = 0 then .pinf else .nan) (oneMap 0) (oneMap 0))).isSome = true := by decide +kernel
    rw [h] at this
    exact absurd this (by simp [oneOf])
  · obtain ⟨m, f, -, k1, k2, k3, x, y, -, -, -, k4⟩ := C68_solver rfl ⟨rfl, rfl⟩ h 0 0 (by decide) (by decide) 1 5
      (fun q => by simpa [oneCv, Measure.worst] using q 4 (by decide) 4 (by decide))
      (by
        intro i _ j _ q1 q2
        simp only [oneCv] at q1 q2 ⊢
        split_ifs at q1 q2 ⊢
        · exact ⟨1, rfl, by norm_num, by norm_num⟩
        · exact ⟨5, rfl, by norm_num, by norm_num⟩
        · exact absurd rfl q2
        · exact absurd rfl q1)
    exact ⟨oc, orr, os, rfl, m, f, k3, k1 4 (by decide) 4 (by decide) (by decide) (by decide), k1 5 (by decide) 3 (by decide) (by decide) (by decide), k2, x, y, k4⟩

end Verif.Props
