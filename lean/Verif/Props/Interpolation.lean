import Verif.Spec.Interpolation
import Verif.Lemmas.OpticalFlow
import Verif.Spec.Disparity

/-!
# Properties C53, C54, C67, C68: the interpolation refinement
-/

set_option linter.unusedSectionVars false

namespace Verif.Props

open Verif Verif.Disparity Verif.Interpolation Verif.Spec Verif.OpticalFlow

variable {K : Type} [Field K] [LinearOrder K] [IsStrictOrderedRing K]
variable {e : IExt K} {cv : CostVolumes K} {rowMap colMap : Arr2 (F K)} {oc orr os : Arr2 (F K)}

/-- The matrix given to the pool for the pixel number `i` is the cost surface of a pixel. -/
theorem costMatrix_eq (cv : CostVolumes K) (i : Nat) :
    costMatrix (dataOf cv) i = pixelSurface cv (i / cv.col.n) (i % cv.col.n) := rfl

/-- C53: the three refined values of pixel `(r, c)` are computed from the cost surface and the initial disparities of this pixel, and
the maps keep their shape. -/
theorem C53_own_surface (hr : rowMap.w = cv.col.n) (hc : colMap.h = cv.row.n ∧ colMap.w = cv.col.n)
    (h : Interpolation.refinementMethod e cv rowMap colMap = .ok (oc, orr, os)) :
    (oc.h = cv.row.n ∧ oc.w = cv.col.n ∧ orr.h = cv.row.n ∧ orr.w = cv.col.n ∧ os.h = cv.row.n ∧ os.w = cv.col.n) ∧
    ∀ r < cv.row.n, ∀ c < cv.col.n,
      computeCostMatrix e cv (colMap.get r c) (rowMap.get r c) (pixelSurface cv r c) =
        .ok (oc.get r c, orr.get r c, os.get r c) := by
  unfold Interpolation.refinementMethod at h
  rcases hl : results e cv rowMap colMap with x | l
  · rw [hl] at h; simp at h
  rw [hl] at h
  simp only at h
  split_ifs at h with h1 h2
  simp only [Except.ok.injEq, Prod.mk.injEq] at h
  obtain ⟨rfl, rfl, rfl⟩ := h
  refine ⟨⟨hc.1, hc.2, hc.1, hc.2, hc.1, hc.2⟩, ?_⟩
  intro r hr' c hc'
  unfold results at hl
  obtain ⟨-, hg⟩ := mapM_range _ _ _ hl
  have hlt : r * cv.col.n + c < cv.row.n * cv.col.n := by
    calc r * cv.col.n + c < r * cv.col.n + cv.col.n := Nat.add_lt_add_left hc' _
      _ = (r + 1) * cv.col.n := by ring
      _ ≤ cv.row.n * cv.col.n := Nat.mul_le_mul_right _ hr'
  have := hg _ hlt (.nan, .nan, .nan)
  have d1 : (r * cv.col.n + c) / cv.col.n = r := by
    rw [Nat.mul_comm, Nat.mul_add_div (by omega), Nat.div_eq_of_lt hc', Nat.add_zero]
  have d2 : (r * cv.col.n + c) % cv.col.n = c := by
    rw [Nat.mul_comm, Nat.mul_add_mod, Nat.mod_eq_of_lt hc']
  rw [costMatrix_eq, hr, hc.2, d1, d2] at this
  rw [this, hc.2]

/-- The refinement succeeds when `interp2d` does. -/
theorem C53_total (he : InterpContract e) (hc : colMap.h = cv.row.n ∧ colMap.w = cv.col.n)
    (hp : 0 < cv.row.n ∧ 0 < cv.col.n) : ∃ o, Interpolation.refinementMethod e cv rowMap colMap = .ok o := by
  have hok : ∃ l, results e cv rowMap colMap = .ok l := by
    unfold results
    apply mapM_range_ok
    intro k _
    rw [costMatrix_eq]
    unfold computeCostMatrix
    simp only
    split_ifs with h
    · exact ⟨_, rfl⟩
    · obtain ⟨f, hf, -⟩ := he cv.dispCol cv.dispRow
        (fillNan (noInf (signed cv.measure (pixelSurface cv (k / cv.col.n) (k % cv.col.n)))))
        (by cases cv.measure <;> rfl) (by cases cv.measure <;> rfl)
      rw [hf]
      exact ⟨_, rfl⟩
  obtain ⟨l, hl⟩ := hok
  have hlen : l.length = cv.row.n * cv.col.n := by
    unfold results at hl
    exact (mapM_range _ _ _ hl).1
  unfold Interpolation.refinementMethod
  rw [hl]
  simp only
  rw [if_neg, if_neg]
  · exact ⟨_, rfl⟩
  · rw [hlen, hc.1, hc.2]; simp
  · intro h0
    rw [h0] at hlen
    have := Nat.mul_pos hp.1 hp.2
    simp at hlen
    omega

/-! ## C54 -/

theorem mem_positions {m : Arr2 (F K)} {p : Nat × Nat} : p ∈ positions m ↔ p.1 < m.h ∧ p.2 < m.w := by
  unfold positions
  rw [List.mem_map]
  constructor
  · rintro ⟨k, hk, rfl⟩
    rw [List.mem_range] at hk
    have hw : 0 < m.w := Nat.pos_of_ne_zero fun h => by simp [h] at hk
    exact ⟨(Nat.div_lt_iff_lt_mul hw).2 hk, Nat.mod_lt _ hw⟩
  · rintro ⟨hi, hj⟩
    refine ⟨p.1 * m.w + p.2, ?_, ?_⟩
    · rw [List.mem_range]
      calc p.1 * m.w + p.2 < p.1 * m.w + m.w := Nat.add_lt_add_left hj _
        _ = (p.1 + 1) * m.w := by ring
        _ ≤ m.h * m.w := Nat.mul_le_mul_right _ hi
    · rw [Nat.mul_comm, Nat.mul_add_div (by omega), Nat.div_eq_of_lt hj, Nat.mul_add_mod, Nat.mod_eq_of_lt hj, Nat.add_zero]

/-- Cell of the matrix after the change of sign and the removal of the infinity. -/
theorem cell_nan_iff (m : Measure) (v : F K) :
    (if F.eq (match m with | .max => F.neg v | .min => v) .pinf then F.nan else
      (match m with | .max => F.neg v | .min => v)).isNaN = true ↔ v = .nan ∨ v = m.worst := by
  cases m <;> cases v <;> simp [F.neg, F.eq, F.isNaN, Measure.worst]

theorem noCost_iff (cv : CostVolumes K) (r c : Nat) :
    ((positions (noInf (signed cv.measure (pixelSurface cv r c)))).all fun p =>
      ((noInf (signed cv.measure (pixelSurface cv r c))).get p.1 p.2).isNaN) = true ↔ NoCost cv r c := by
  rw [List.all_eq_true]
  have hh : (noInf (signed cv.measure (pixelSurface cv r c))).h = cv.dispRow.n := by cases cv.measure <;> rfl
  have hw : (noInf (signed cv.measure (pixelSurface cv r c))).w = cv.dispCol.n := by cases cv.measure <;> rfl
  have hg : ∀ j i, (noInf (signed cv.measure (pixelSurface cv r c))).get j i =
      if F.eq (match cv.measure with | .max => F.neg (cv.data r c i j) | .min => cv.data r c i j) .pinf then F.nan else
      (match cv.measure with | .max => F.neg (cv.data r c i j) | .min => cv.data r c i j) := by
    intro j i
    cases cv.measure <;> rfl
  constructor
  · intro h i hi j hj
    have := h (j, i) (mem_positions.2 ⟨by rw [hh]; exact hj, by rw [hw]; exact hi⟩)
    rw [hg, cell_nan_iff] at this
    exact this
  · intro h p hp
    obtain ⟨h1, h2⟩ := mem_positions.1 hp
    rw [hh] at h1
    rw [hw] at h2
    rw [hg, cell_nan_iff]
    exact h p.2 h2 p.1 h1

/-- C54, what happens at a pixel without any cost: NaN in the three maps, whatever the invalid value. -/
theorem C54_no_cost_gives_nan (hr : rowMap.w = cv.col.n) (hc : colMap.h = cv.row.n ∧ colMap.w = cv.col.n)
    (h : Interpolation.refinementMethod e cv rowMap colMap = .ok (oc, orr, os)) (r c : Nat) (hr' : r < cv.row.n)
    (hc' : c < cv.col.n) (hn : NoCost cv r c) : oc.get r c = .nan ∧ orr.get r c = .nan ∧ os.get r c = .nan := by
  have := (C53_own_surface hr hc h).2 r hr' c hc'
  unfold computeCostMatrix at this
  simp only at this
  rw [if_pos ((noCost_iff cv r c).2 hn)] at this
  have := Except.ok.inj this
  simp only [Prod.mk.injEq] at this
  exact ⟨this.1.symm, this.2.1.symm, this.2.2.symm⟩

/-- A usable cost is kept by the removal of the infinity. -/
theorem usable_cell {m : Measure} {v : F K} (h1 : v ≠ .nan) (h2 : v ≠ m.worst) :
    (if F.eq (toMinimise m v) .pinf then F.nan else toMinimise m v) = toMinimise m v ∧ (toMinimise m v).isNaN = false := by
  cases m <;> cases v <;> simp_all [toMinimise, F.neg, F.eq, F.isNaN, Measure.worst]

/-! ### The missing costs -/

theorem npInterp_skip (x : Nat) (a b : Nat) (f g : F K) (l : List (Nat × F K)) (h : a ≤ b) (hb : b ≤ x) :
    npInterp x ((a, f) :: (b, g) :: l) = npInterp x ((b, g) :: l) := by
  rw [npInterp, if_neg (by omega), if_pos hb]

/-- The points which are not after `x` are skipped, but the last one. -/
theorem npInterp_last (x : Nat) (l : List (Nat × F K)) : ∀ (u : List (Nat × F K)) (p : Nat × F K),
    (u ++ [p]).Pairwise (fun a b => a.1 ≤ b.1) → p.1 ≤ x → npInterp x (u ++ p :: l) = npInterp x (p :: l)
  | [], _, _, _ => rfl
  | a :: u, p, hs, hp => by
    have ih := npInterp_last x l u p (List.pairwise_cons.1 hs).2 hp
    rw [← ih]
    cases u with
    | nil => exact npInterp_skip _ _ _ _ _ _ ((List.pairwise_cons.1 hs).1 p (by simp)) hp
    | cons b u =>
      refine npInterp_skip _ _ _ _ _ _ ((List.pairwise_cons.1 hs).1 b (by simp)) ?_
      exact le_trans ((List.pairwise_cons.1 (List.pairwise_cons.1 hs).2).1 p (by simp)) hp

theorem npInterp_head (x : Nat) (p : Nat × F K) (l : List (Nat × F K)) (h : x < p.1) : npInterp x (p :: l) = p.2 := by
  cases l with
  | nil => rfl
  | cons q l => rw [npInterp, if_pos h]

theorem npInterp_pair (x : Nat) (p q : Nat × F K) (l : List (Nat × F K)) (h : p.1 ≤ x) (h' : x < q.1) :
    npInterp x (p :: q :: l) = if p.1 = x then p.2 else
      F.add p.2 (F.mul (OpticalFlow.fsub q.2 p.2) (.fin (((x : K) - (p.1 : K)) / ((q.1 : K) - (p.1 : K))))) := by
  rw [npInterp, if_neg (by omega), if_neg (by omega)]

theorem rank_row {w : Nat} {p q : Nat × Nat} (_ : p.2 < w) (hq : q.2 < w) (h : rank w p ≤ rank w q) : p.1 ≤ q.1 := by
  unfold rank at h
  by_contra hc
  have : (q.1 + 1) * w ≤ p.1 * w := Nat.mul_le_mul_right _ (by omega)
  rw [Nat.add_mul] at this
  omega

/-- `np.interp` on the known cells listed row by row. -/
theorem npInterp_filled {w : Nat} {known : Nat × Nat → Prop} (m : Nat → Nat → F K) (j : Nat) (l : List (Nat × Nat))
    (hs : l.Pairwise fun p q => rank w p < rank w q) (hl : ∀ p, p ∈ l ↔ known p) (hw : ∀ p ∈ l, p.2 < w) :
    RowFilled w known m j (npInterp j (l.map fun p => (p.1, m p.1 p.2))) := by
  have rows : ∀ u : List (Nat × Nat), (∀ p ∈ u, p ∈ l) → (u.Pairwise fun p q => rank w p < rank w q) →
      (u.map fun p => (p.1, m p.1 p.2)).Pairwise fun a b => a.1 ≤ b.1 := by
    intro u hu hp
    rw [List.pairwise_map]
    exact hp.imp_of_mem fun {a b} ha hb h => rank_row (hw _ (hu _ ha)) (hw _ (hu _ hb)) h.le
  have split : ∀ p ∈ l, ∃ u v, l = u ++ p :: v ∧ (∀ q ∈ u, rank w q < rank w p) ∧ ∀ q ∈ v, rank w p < rank w q := by
    intro p hp
    obtain ⟨u, v, rfl⟩ := List.append_of_mem hp
    obtain ⟨h1, h2, h3⟩ := List.pairwise_append.1 hs
    exact ⟨u, v, rfl, fun q hq => h3 q hq p (by simp), (List.pairwise_cons.1 h2).1⟩
  constructor
  · intro hall p hp
    obtain ⟨u, v, e, h1, h2⟩ := split p ((hl p).2 hp.1)
    have : u = [] := by
      cases u with
      | nil => rfl
      | cons q u => exact absurd (h1 q (by simp)) (not_lt.2 (hp.2 q ((hl q).1 (by rw [e]; simp))))
    subst this
    rw [e]
    exact npInterp_head _ _ _ (hall p hp.1)
  · intro hall p hp
    obtain ⟨u, v, e, h1, h2⟩ := split p ((hl p).2 hp.1)
    have : v = [] := by
      cases v with
      | nil => rfl
      | cons q v => exact absurd (h2 q (by simp)) (not_lt.2 (hp.2 q ((hl q).1 (by rw [e]; simp))))
    subst this
    have hr := rows l (fun _ h => h) hs
    rw [e, List.map_append] at hr
    rw [e, List.map_append, List.map_cons, npInterp_last _ _ _ _ hr (hall p hp.1)]
    rfl
  · intro p q hp hq
    obtain ⟨u, v, e, h1, h2⟩ := split p ((hl p).2 hp.1.1)
    have hqm : q ∈ l := (hl q).2 hq.1.1
    have hr := rows (u ++ [p]) (fun x hx => by rw [e]; simp only [List.mem_append, List.mem_cons, List.not_mem_nil, or_false] at hx ⊢; tauto)
      (by
        rw [e] at hs
        exact hs.sublist (List.Sublist.append_left (by simp) u))
    rw [List.map_append] at hr
    rw [e, List.map_append, List.map_cons, npInterp_last _ _ _ _ hr hp.1.2]
    have : ∃ v', v = q :: v' := by
      rw [e] at hqm
      rcases List.mem_append.1 hqm with h | h
      · have := rank_row (hw q (by rw [e]; simp [h])) (hw p (by rw [e]; simp)) (h1 q h).le
        have := hp.1.2
        have := hq.1.2
        omega
      · rcases List.mem_cons.1 h with h | h
        · have := hp.1.2
          have := hq.1.2
          rw [h] at this
          omega
        · cases v with
          | nil => simp at h
          | cons x v' =>
            refine ⟨v', ?_⟩
            have hx : x ∈ l := by rw [e]; simp
            have hpl : p ∈ l := by rw [e]; simp
            have xl : j < x.1 := by
              by_contra hc
              exact absurd (hp.2 x ⟨(hl x).1 hx, by omega⟩) (not_le.2 (h2 x (by simp)))
            have r1 := hq.2 x ⟨(hl x).1 hx, xl⟩
            rcases List.mem_cons.1 h with h | h
            · rw [h]
            · have := e ▸ hs
              have h4 := (List.pairwise_cons.1 (List.pairwise_cons.1 (List.pairwise_append.1 this).2.1).2).1 q h
              omega
    obtain ⟨v', rfl⟩ := this
    exact npInterp_pair _ _ _ _ hp.1.2 hq.1.2

/-- `fillNan` gives their values to the missing cells. -/
theorem fillNan_filled (x : Arr2 (F K)) (j i : Nat) (h : x.get j i = .nan) :
    RowFilled x.w (fun p => (p.1 < x.h ∧ p.2 < x.w) ∧ x.get p.1 p.2 ≠ .nan) x.get j ((fillNan x).get j i) := by
  have hnan : ∀ v : F K, v.isNaN = true ↔ v = .nan := by intro v; cases v <;> simp [F.isNaN]
  simp only [fillNan]
  rw [if_pos ((hnan _).2 h)]
  refine npInterp_filled x.get j _ ?_ ?_ ?_
  · refine List.Pairwise.filter _ ?_
    unfold positions
    rw [List.pairwise_map]
    refine (List.pairwise_lt_range).imp_of_mem fun {a b} _ _ hab => ?_
    simp only [rank]
    have e1 := Nat.div_add_mod a x.w
    have e2 := Nat.div_add_mod b x.w
    rw [Nat.mul_comm] at e1 e2
    omega
  · intro p
    rw [List.mem_filter, mem_positions]
    simp only [Bool.not_eq_true', ← Bool.not_eq_true, hnan, ne_eq]
  · intro p hp
    exact (mem_positions.1 (List.mem_filter.1 hp).1).2

theorem rowFilled_congr {w : Nat} {known : Nat × Nat → Prop} {m m' : Nat → Nat → F K} {j : Nat} {v : F K} (h : RowFilled w known m j v)
    (e : ∀ p, known p → m p.1 p.2 = m' p.1 p.2) : RowFilled w known m' j v :=
  ⟨fun a p hp => (h.above a p hp).trans (e p hp.1), fun a p hp => (h.below a p hp).trans (e p hp.1),
    fun p q hp hq => by rw [h.between p q hp hq, e p hp.1.1, e q hq.1.1]⟩

/-- C53: when the pixel has a cost, the surface interpolated holds its own usable costs (their opposites for a similarity), the
others being replaced according to the usable costs of the rows around, the
minimisation starts from its own initial disparities, and its result gives the column and row disparities of this pixel, in this order. -/
theorem C53_minimised (hr : rowMap.w = cv.col.n) (hc : colMap.h = cv.row.n ∧ colMap.w = cv.col.n)
    (h : Interpolation.refinementMethod e cv rowMap colMap = .ok (oc, orr, os)) (r c : Nat) (hr' : r < cv.row.n)
    (hc' : c < cv.col.n) (hn : ¬ NoCost cv r c) :
    ∃ m f, (m.h = cv.dispRow.n ∧ m.w = cv.dispCol.n) ∧
      (∀ i < cv.dispCol.n, ∀ j < cv.dispRow.n, cv.data r c i j ≠ .nan → cv.data r c i j ≠ cv.measure.worst →
        m.get j i = toMinimise cv.measure (cv.data r c i j)) ∧
      (∀ i < cv.dispCol.n, ∀ j < cv.dispRow.n, ¬ (cv.data r c i j ≠ .nan ∧ cv.data r c i j ≠ cv.measure.worst) →
        RowFilled cv.dispCol.n (fun p => (p.1 < cv.dispRow.n ∧ p.2 < cv.dispCol.n) ∧ cv.data r c p.2 p.1 ≠ .nan ∧ cv.data r c p.2 p.1 ≠ cv.measure.worst)
          m.get j (m.get j i)) ∧
      e.interp2d cv.dispCol cv.dispRow m = .ok f ∧
      ∃ x y, e.minimize f (colMap.get r c, rowMap.get r c) ((cv.dispCol.get 0, cv.dispCol.get (cv.dispCol.n - 1)),
          (cv.dispRow.get 0, cv.dispRow.get (cv.dispRow.n - 1))) = (x, y) ∧
        oc.get r c = .fin x ∧ orr.get r c = .fin y ∧ os.get r c = fabs (f x y) := by
  have := (C53_own_surface hr hc h).2 r hr' c hc'
  unfold computeCostMatrix at this
  simp only at this
  rw [if_neg (fun hh => hn ((noCost_iff cv r c).1 hh))] at this
  rcases hf : e.interp2d cv.dispCol cv.dispRow (fillNan (noInf (signed cv.measure (pixelSurface cv r c)))) with x | f
  · rw [hf] at this; simp at this
  rw [hf] at this
  simp only at this
  have := Except.ok.inj this
  simp only [Prod.mk.injEq] at this
  set x := noInf (signed cv.measure (pixelSurface cv r c)) with hx
  have sz : x.h = cv.dispRow.n ∧ x.w = cv.dispCol.n := by rw [hx]; constructor <;> cases cv.measure <;> rfl
  have cell : ∀ i j, x.get j i = if F.eq (toMinimise cv.measure (cv.data r c i j)) .pinf then F.nan else toMinimise cv.measure (cv.data r c i j) := by
    intro i j
    rw [hx]
    cases cv.measure <;> rfl
  have known : ∀ i j, cv.data r c i j ≠ .nan ∧ cv.data r c i j ≠ cv.measure.worst →
      x.get j i = toMinimise cv.measure (cv.data r c i j) ∧ (x.get j i).isNaN = false := by
    rintro i j ⟨h1, h2⟩
    obtain ⟨h3, h4⟩ := usable_cell h1 h2
    rw [cell, h3]
    exact ⟨rfl, h4⟩
  have missing : ∀ i j, ¬ (cv.data r c i j ≠ .nan ∧ cv.data r c i j ≠ cv.measure.worst) → x.get j i = .nan := by
    intro i j h
    rw [cell]
    cases hm : cv.measure <;> cases hv : cv.data r c i j <;> simp_all [toMinimise, F.neg, F.eq, Measure.worst]
  have kept : ∀ i j, (x.get j i).isNaN = false → (fillNan x).get j i = x.get j i := by
    intro i j h
    simp only [fillNan, h, Bool.false_eq_true, if_false]
  refine ⟨fillNan x, f, ⟨sz.1, sz.2⟩, ?_, ?_, hf, _, _, rfl, this.1.symm, this.2.1.symm, this.2.2.symm⟩
  · intro i _ j _ h1 h2
    obtain ⟨h3, h4⟩ := known i j ⟨h1, h2⟩
    rw [kept _ _ h4, h3]
  · intro i _ j _ h
    have t := fillNan_filled x j i (missing i j h)
    rw [sz.1, sz.2] at t
    have e : (fun p : Nat × Nat => (p.1 < cv.dispRow.n ∧ p.2 < cv.dispCol.n) ∧ x.get p.1 p.2 ≠ .nan) =
        fun p => (p.1 < cv.dispRow.n ∧ p.2 < cv.dispCol.n) ∧ cv.data r c p.2 p.1 ≠ .nan ∧ cv.data r c p.2 p.1 ≠ cv.measure.worst := by
      funext p
      refine propext (and_congr_right fun _ => ⟨fun q => by_contra fun hc => q (missing _ _ hc), fun q hc => ?_⟩)
      have := (known _ _ q).2
      rw [hc] at this
      simp [F.isNaN] at this
    rw [e] at t
    exact rowFilled_congr t fun p hp => (kept _ _ (known _ _ hp.2).2).symm

/-- C54 (partial): with NaN as invalid value a pixel without any cost keeps it, and every other refined disparity is between the first
and the last disparities of the cost volumes (margins of the refinement included). -/
theorem C54_partial (he : BoundsContract e) (hr : rowMap.w = cv.col.n) (hc : colMap.h = cv.row.n ∧ colMap.w = cv.col.n)
    (hx : cv.dispCol.get 0 ≤ cv.dispCol.get (cv.dispCol.n - 1)) (hy : cv.dispRow.get 0 ≤ cv.dispRow.get (cv.dispRow.n - 1))
    (h : Interpolation.refinementMethod e cv rowMap colMap = .ok (oc, orr, os)) (r c : Nat) (hr' : r < cv.row.n)
    (hc' : c < cv.col.n) :
    (NoCost cv r c → oc.get r c = .nan ∧ orr.get r c = .nan ∧ os.get r c = .nan) ∧
    (¬ NoCost cv r c → ∃ x y, oc.get r c = .fin x ∧ orr.get r c = .fin y ∧
      cv.dispCol.get 0 ≤ x ∧ x ≤ cv.dispCol.get (cv.dispCol.n - 1) ∧
      cv.dispRow.get 0 ≤ y ∧ y ≤ cv.dispRow.get (cv.dispRow.n - 1)) := by
  refine ⟨C54_no_cost_gives_nan hr hc h r c hr' hc', ?_⟩
  intro hn
  have := (C53_own_surface hr hc h).2 r hr' c hc'
  unfold computeCostMatrix at this
  simp only at this
  rw [if_neg (fun hh => hn ((noCost_iff cv r c).1 hh))] at this
  rcases hf : e.interp2d cv.dispCol cv.dispRow (fillNan (noInf (signed cv.measure (pixelSurface cv r c)))) with x | f
  · rw [hf] at this; simp at this
  rw [hf] at this
  simp only at this
  have := Except.ok.inj this
  simp only [Prod.mk.injEq] at this
  obtain ⟨b1, b2, b3, b4⟩ := he f (colMap.get r c, rowMap.get r c)
    ((cv.dispCol.get 0, cv.dispCol.get (cv.dispCol.n - 1)), (cv.dispRow.get 0, cv.dispRow.get (cv.dispRow.n - 1))) hx hy
  exact ⟨_, _, this.1.symm, this.2.1.symm, b1, b2, b3, b4⟩

end Verif.Props
