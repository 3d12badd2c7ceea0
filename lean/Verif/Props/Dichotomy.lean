import Verif.Lemmas.Dichotomy
import Verif.Spec.Dichotomy
import Verif.Props.Disparity
import Verif.Props.Filters

/-!
# C40 to C46, C61: the dichotomy

The theorems are about the whole method `Dichotomy.refinementMethod`, for every pixel, filter, number of iterations, and cost
volumes with a subpixel factor which is a power of two (the configuration accepts 1, 2 and 4).
-/

set_option linter.unusedSectionVars false

namespace Verif.Props

open Verif Verif.Filters Verif.Disparity Verif.Dichotomy Verif.Spec

variable {K : Type} [Field K] [LinearOrder K] [IsStrictOrderedRing K] [FloorRing K]

theorem isInvalid_iff (invalid v : F K) : isInvalid invalid v = true ↔ IsMark invalid v := by
  unfold isInvalid IsMark
  cases invalid <;> cases v <;> simp [F.isNaN, F.eq]

theorem atEnd_iff (lo hi : Int) (a : F K) : atEnd a lo hi = true ↔ AtEnd lo hi a := by
  unfold atEnd AtEnd
  cases a <;> simp [F.eq]

theorem worst_eq (m : Measure) : (m.worst : F K) = worstOf m := by cases m <;> rfl

section
variable {f : IFilter K} {it k : Nat} {cv : CostVolumes K} {invalid : F K} {rowMap colMap : Arr2 (F K)} {g : Grids} {out : Maps K}

/-! ## C40 and C41 -/

/-- C40: each refined disparity is the initial one, or differs from it by at most `1 / subpix - 2 ^ -iterations`. -/
theorem C40_displacement (h : refinementMethod f it cv invalid rowMap colMap g = .ok out) (hs : cv.subpixel = 2 ^ k) (r c : Nat)
    (hr : r < cv.row.n) (hc : c < cv.col.n) :
    WithinOf (1 / (cv.subpixel : K) - 1 / 2 ^ it) (rowMap.get r c) (out.row.get r c) ∧
    WithinOf (1 / (cv.subpixel : K) - 1 / 2 ^ it) (colMap.get r c) (out.col.get r c) := by
  obtain ⟨v, -, hp⟩ := method_pixel h hr hc
  rcases refinePixel_cases hp with ⟨he, -⟩ | ⟨-, -, -, dr, dc, p, e1, e2, hl, he⟩
  · rw [Cell.mk.injEq] at he
    exact ⟨.inl he.1.symm, .inl he.2.1.symm⟩
  · rw [Cell.mk.injEq] at he
    simp only at e1 e2
    rw [hs] at hl ⊢
    by_cases hk : k ≤ it
    · obtain ⟨m1, m2, -, -⟩ := loop_moves _ _ _ (precisions_nonneg k it) hl
      rw [precisions_sum k it hk] at m1 m2
      push_cast
      exact ⟨.inr ⟨dr, _, e1, he.1, m1⟩, .inr ⟨dc, _, e2, he.2.1, m2⟩⟩
    · rw [precisions_nil k it (by omega)] at hl
      have hl' := Except.ok.inj hl
      subst hl'
      exact ⟨.inl (e1.trans he.1.symm), .inl (e2.trans he.2.1.symm)⟩

/-- C40: strictly less than one step of the input disparities. -/
theorem C40_less_than_one_step (h : refinementMethod f it cv invalid rowMap colMap g = .ok out) (hs : cv.subpixel = 2 ^ k)
    (r c : Nat) (hr : r < cv.row.n) (hc : c < cv.col.n) :
    (rowMap.get r c = out.row.get r c ∨ ∃ x y, rowMap.get r c = .fin x ∧ out.row.get r c = .fin y ∧ |y - x| < 1 / cv.subpixel) ∧
    (colMap.get r c = out.col.get r c ∨ ∃ x y, colMap.get r c = .fin x ∧ out.col.get r c = .fin y ∧ |y - x| < 1 / cv.subpixel) := by
  have hpos : (0 : K) < 1 / 2 ^ it := by positivity
  obtain ⟨h1, h2⟩ := C40_displacement h hs r c hr hc
  constructor
  · rcases h1 with h1 | ⟨x, y, a, b, hle⟩
    · exact .inl h1
    · exact .inr ⟨x, y, a, b, by linarith⟩
  · rcases h2 with h1 | ⟨x, y, a, b, hle⟩
    · exact .inl h1
    · exact .inr ⟨x, y, a, b, by linarith⟩

/-- C40: when the subpixel factor already reaches the precision asked for, nothing moves. -/
theorem C40_unchanged (h : refinementMethod f it cv invalid rowMap colMap g = .ok out) (hs : cv.subpixel = 2 ^ k) (hk : it ≤ k)
    (r c : Nat) (hr : r < cv.row.n) (hc : c < cv.col.n) :
    out.row.get r c = rowMap.get r c ∧ out.col.get r c = colMap.get r c := by
  obtain ⟨v, -, hp⟩ := method_pixel h hr hc
  rcases refinePixel_cases hp with ⟨he, -⟩ | ⟨-, -, -, dr, dc, p, e1, e2, hl, he⟩
  · rw [Cell.mk.injEq] at he
    exact ⟨he.1, he.2.1⟩
  · rw [Cell.mk.injEq] at he
    simp only at e1 e2
    rw [hs, precisions_nil k it hk] at hl
    have hl' := Except.ok.inj hl
    subst hl'
    exact ⟨he.1.trans e1.symm, he.2.1.trans e2.symm⟩

/-- C41: the displacement is a multiple of `2 ^ -iterations`. -/
theorem C41_lattice (h : refinementMethod f it cv invalid rowMap colMap g = .ok out) (hs : cv.subpixel = 2 ^ k) (r c : Nat)
    (hr : r < cv.row.n) (hc : c < cv.col.n) :
    OnLattice (1 / 2 ^ it) (rowMap.get r c) (out.row.get r c) ∧ OnLattice (1 / 2 ^ it) (colMap.get r c) (out.col.get r c) := by
  obtain ⟨v, -, hp⟩ := method_pixel h hr hc
  rcases refinePixel_cases hp with ⟨he, -⟩ | ⟨-, -, -, dr, dc, p, e1, e2, hl, he⟩
  · rw [Cell.mk.injEq] at he
    exact ⟨.inl he.1.symm, .inl he.2.1.symm⟩
  · rw [Cell.mk.injEq] at he
    simp only at e1 e2
    rw [hs] at hl
    obtain ⟨l1, l2⟩ := loop_lattice _ _ _ _ (precisions_lattice k it) hl
    exact ⟨.inr ⟨dr, _, e1, he.1, l1⟩, .inr ⟨dc, _, e2, he.2.1, l2⟩⟩

/-! ## C42 -/

/-- A multiple of `1 / sub` strictly between two integers is at least one step away from them. -/
theorem step_inside {sub : Nat} (hs : 0 < sub) {x : K} {lo hi : Int} (hm : ∃ n : Int, x * sub = n) (h1 : (lo : K) ≤ x)
    (h2 : x ≤ (hi : K)) (n1 : x ≠ lo) (n2 : x ≠ hi) : (lo : K) + 1 / sub ≤ x ∧ x ≤ (hi : K) - 1 / sub := by
  have hs' : (0 : K) < sub := by exact_mod_cast hs
  obtain ⟨n, hn⟩ := hm
  have g1 : (lo : K) * sub < n := by rw [← hn]; exact mul_lt_mul_of_pos_right (lt_of_le_of_ne h1 (Ne.symm n1)) hs'
  have g2 : (n : K) < hi * sub := by rw [← hn]; exact mul_lt_mul_of_pos_right (lt_of_le_of_ne h2 n2) hs'
  have i1 : lo * sub + 1 ≤ n := by
    have : lo * (sub : Int) < n := by exact_mod_cast g1
    omega
  have i2 : n + 1 ≤ hi * sub := by
    have : n < hi * (sub : Int) := by exact_mod_cast g2
    omega
  have j1 : (lo : K) * sub + 1 ≤ n := by exact_mod_cast i1
  have j2 : (n : K) + 1 ≤ hi * sub := by exact_mod_cast i2
  rw [← hn] at j1 j2
  constructor
  · have : ((lo : K) * sub + 1) / sub ≤ x := by rw [div_le_iff₀ hs']; exact j1
    rwa [add_div, mul_div_cancel_right₀ _ hs'.ne'] at this
  · have : x ≤ (hi * sub - 1) / sub := by rw [le_div_iff₀ hs']; linarith
    rwa [sub_div, mul_div_cancel_right₀ _ hs'.ne'] at this

/-- C42: a disparity on the lattice of the cost volumes and in the range of its pixel stays in this range. -/
theorem C42_stays_in_range (h : refinementMethod f it cv invalid rowMap colMap g = .ok out) (hs : cv.subpixel = 2 ^ k) (r c : Nat)
    (hr : r < cv.row.n) (hc : c < cv.col.n) (hmr : Multiple cv.subpixel (rowMap.get r c)) (hmc : Multiple cv.subpixel (colMap.get r c))
    (hir : DispInRange (g.rowMin.get r c) (g.rowMax.get r c) (rowMap.get r c))
    (hic : DispInRange (g.colMin.get r c) (g.colMax.get r c) (colMap.get r c)) :
    DispInRange (g.rowMin.get r c) (g.rowMax.get r c) (out.row.get r c) ∧
    DispInRange (g.colMin.get r c) (g.colMax.get r c) (out.col.get r c) := by
  obtain ⟨v, -, hp⟩ := method_pixel h hr hc
  rcases refinePixel_cases hp with ⟨he, -⟩ | ⟨-, n1, n2, dr, dc, p, e1, e2, hl, he⟩
  · rw [Cell.mk.injEq] at he
    rw [he.1, he.2.1]
    exact ⟨hir, hic⟩
  · rw [Cell.mk.injEq] at he
    simp only at e1 e2 n1 n2
    rw [e1] at hir hmr n1
    rw [e2] at hic hmc n2
    have hsub : 0 < cv.subpixel := by rw [hs]; positivity
    obtain ⟨x, ex, hm⟩ := hmr
    rw [F.fin.injEq] at ex; subst ex
    obtain ⟨x, ex, a1, a2⟩ := hir
    rw [F.fin.injEq] at ex; subst ex
    obtain ⟨y, ey, hm'⟩ := hmc
    rw [F.fin.injEq] at ey; subst ey
    obtain ⟨y, ey, b1, b2⟩ := hic
    rw [F.fin.injEq] at ey; subst ey
    obtain ⟨s1, s2⟩ := step_inside hsub hm a1 a2 (atEnd_false n1).1 (atEnd_false n1).2
    obtain ⟨t1, t2⟩ := step_inside hsub hm' b1 b2 (atEnd_false n2).1 (atEnd_false n2).2
    obtain ⟨d1, d2⟩ := C40_less_than_one_step h hs r c hr hc
    rw [e1] at d1; rw [e2] at d2
    constructor
    · rcases d1 with d1 | ⟨x', y', ex, ey, hd⟩
      · rw [← d1]; exact ⟨dr, rfl, a1, a2⟩
      · rw [F.fin.injEq] at ex; subst ex
        rw [abs_lt] at hd
        exact ⟨y', ey, by linarith [hd.1], by linarith [hd.2]⟩
    · rcases d2 with d1 | ⟨x', y', ex, ey, hd⟩
      · rw [← d1]; exact ⟨dc, rfl, b1, b2⟩
      · rw [F.fin.injEq] at ex; subst ex
        rw [abs_lt] at hd
        exact ⟨y', ey, by linarith [hd.1], by linarith [hd.2]⟩

/-! ## C43 -/

theorem costValue_axes {mg : Margins} {cl ch rl rh : Int} (hs : 0 < cv.subpixel)
    (hac : IsAxis cv.dispCol cl ch mg.left mg.right cv.subpixel) (har : IsAxis cv.dispRow rl rh mg.up mg.down cv.subpixel)
    (r c i j : Nat) (hi : i < cv.dispCol.n) (hj : j < cv.dispRow.n) (h1 : ¬ IsMark invalid (.fin (cv.dispRow.get j)))
    (h2 : ¬ IsMark invalid (.fin (cv.dispCol.get i))) :
    costValue cv invalid (.fin (cv.dispRow.get j)) (.fin (cv.dispCol.get i)) r c = .ok (cv.data r c i j) := by
  have g1 : isInvalid invalid (.fin (cv.dispRow.get j)) = false := by
    rw [← Bool.not_eq_true, isInvalid_iff]; exact h1
  have g2 : isInvalid invalid (.fin (cv.dispCol.get i)) = false := by
    rw [← Bool.not_eq_true, isInvalid_iff]; exact h2
  unfold costValue
  simp only [g1, g2]
  rw [if_neg (by omega)]
  simp only [Bool.false_eq_true, if_false]
  rw [selIndex_get hs har hj, selIndex_get hs hac hi]
  simp

/-- C43 (partial: for the pixels whose disparities are in the axes and are not the invalid value, and with respect to the cost at
the initial disparities): the returned score is not NaN and is at least as good as the cost at the initial disparities. Without these
conditions see `C43_false_invalid_in_range` and `C43_false_ties`. -/
theorem C43_not_worse_partial (h : refinementMethod f it cv invalid rowMap colMap g = .ok out) {mg : Margins} {cl ch rl rh : Int}
    (hs : 0 < cv.subpixel) (hac : IsAxis cv.dispCol cl ch mg.left mg.right cv.subpixel)
    (har : IsAxis cv.dispRow rl rh mg.up mg.down cv.subpixel) (r c i j : Nat) (hr : r < cv.row.n) (hc : c < cv.col.n)
    (hi : i < cv.dispCol.n) (hj : j < cv.dispRow.n) (er : rowMap.get r c = .fin (cv.dispRow.get j))
    (ec : colMap.get r c = .fin (cv.dispCol.get i)) (h1 : ¬ IsMark invalid (rowMap.get r c)) (h2 : ¬ IsMark invalid (colMap.get r c))
    (hn : cv.data r c i j ≠ .nan) (hw : cv.data r c i j ≠ worstOf cv.measure) :
    out.cost.get r c ≠ .nan ∧ AtLeastAsGood cv.measure (out.cost.get r c) (cv.data r c i j) := by
  have hn' : (cv.data r c i j).isNaN = false := by
    cases hd : cv.data r c i j <;> simp_all [F.isNaN]
  obtain ⟨v, hv, hp⟩ := method_pixel h hr hc
  rw [er, ec] at hv
  rw [costValue_axes hs hac har r c i j hi hj (by rwa [← er]) (by rwa [← ec])] at hv
  have hv' := Except.ok.inj hv
  subst hv'
  rcases refinePixel_cases hp with ⟨he, -⟩ | ⟨-, -, -, dr, dc, p, e1, e2, hl, he⟩
  · rw [Cell.mk.injEq] at he
    rw [he.2.2]
    exact ⟨hn, le_of_not_better hn hn (Measure.better_irrefl _ _)⟩
  · rw [Cell.mk.injEq] at he
    rw [he.2.2]
    obtain ⟨a, -, b⟩ := loop_cost _ _ _ hl hn' (by rw [worst_eq]; exact hw)
    have : p.cost ≠ .nan := by
      intro e; rw [e] at a; simp [F.isNaN] at a
    exact ⟨this, le_of_not_better hn this b⟩

/-! ## C44 -/

/-- C44 (partial: the score of an invalid pixel is not kept, see `C44_false_score`): pixels without a cost and pixels with a disparity
at an end of its range keep their disparities. -/
theorem C44_disparities_kept_partial (h : refinementMethod f it cv invalid rowMap colMap g = .ok out) {mg : Margins}
    {cl ch rl rh : Int} (hs : 0 < cv.subpixel) (hac : IsAxis cv.dispCol cl ch mg.left mg.right cv.subpixel)
    (har : IsAxis cv.dispRow rl rh mg.up mg.down cv.subpixel) (r c : Nat) (hr : r < cv.row.n) (hc : c < cv.col.n)
    (hskip : (IsMark invalid (rowMap.get r c) ∨ IsMark invalid (colMap.get r c)) ∨
      (∃ i < cv.dispCol.n, ∃ j < cv.dispRow.n, colMap.get r c = .fin (cv.dispCol.get i) ∧
        rowMap.get r c = .fin (cv.dispRow.get j) ∧ cv.data r c i j = .nan) ∨
      AtEnd (g.rowMin.get r c) (g.rowMax.get r c) (rowMap.get r c) ∨ AtEnd (g.colMin.get r c) (g.colMax.get r c) (colMap.get r c)) :
    out.row.get r c = rowMap.get r c ∧ out.col.get r c = colMap.get r c := by
  obtain ⟨v, hv, hp⟩ := method_pixel h hr hc
  rcases refinePixel_cases hp with ⟨he, -⟩ | ⟨hnan, n1, n2, -⟩
  · rw [Cell.mk.injEq] at he
    exact ⟨he.1, he.2.1⟩
  · exfalso
    simp only at hnan n1 n2
    have hmark : ∀ row col, costValue cv invalid row col r c = .ok v → (IsMark invalid row ∨ IsMark invalid col) → False := by
      intro row col hv hm
      have hb : (isInvalid invalid row || isInvalid invalid col) = true := by
        rcases hm with hm | hm
        · rw [(isInvalid_iff invalid row).2 hm]; rfl
        · rw [(isInvalid_iff invalid col).2 hm]; simp
      unfold costValue at hv
      simp only [hb, if_true] at hv
      rw [ite_eq_iff] at hv
      rcases hv with ⟨-, hv⟩ | ⟨-, hv⟩
      · simp at hv
      split at hv
      · have := Except.ok.inj hv
        rw [← this] at hnan
        simp [F.isNaN] at hnan
      · simp at hv
    rcases hskip with hm | ⟨i, hi, j, hj, ec, er, hd⟩ | he | he
    · exact hmark _ _ hv hm
    · by_cases hm : IsMark invalid (rowMap.get r c) ∨ IsMark invalid (colMap.get r c)
      · exact hmark _ _ hv hm
      · rw [not_or] at hm
        rw [er, ec] at hv hm
        rw [costValue_axes hs hac har r c i j hi hj hm.1 hm.2] at hv
        have := Except.ok.inj hv
        rw [← this, hd] at hnan
        simp [F.isNaN] at hnan
    · rw [← atEnd_iff] at he; rw [he] at n1; simp at n1
    · rw [← atEnd_iff] at he; rw [he] at n2; simp at n2

/-- C44 (partial, same reason): the score of a pixel at an end of its range is the cost at its disparities. -/
theorem C44_score_kept_partial (h : refinementMethod f it cv invalid rowMap colMap g = .ok out) {mg : Margins} {cl ch rl rh : Int}
    (hs : 0 < cv.subpixel) (hac : IsAxis cv.dispCol cl ch mg.left mg.right cv.subpixel)
    (har : IsAxis cv.dispRow rl rh mg.up mg.down cv.subpixel) (r c i j : Nat) (hr : r < cv.row.n) (hc : c < cv.col.n)
    (hi : i < cv.dispCol.n) (hj : j < cv.dispRow.n) (er : rowMap.get r c = .fin (cv.dispRow.get j))
    (ec : colMap.get r c = .fin (cv.dispCol.get i)) (h1 : ¬ IsMark invalid (rowMap.get r c)) (h2 : ¬ IsMark invalid (colMap.get r c))
    (he : cv.data r c i j = .nan ∨ AtEnd (g.rowMin.get r c) (g.rowMax.get r c) (rowMap.get r c) ∨
      AtEnd (g.colMin.get r c) (g.colMax.get r c) (colMap.get r c)) : out.cost.get r c = cv.data r c i j := by
  obtain ⟨v, hv, hp⟩ := method_pixel h hr hc
  rw [er, ec] at hv
  rw [costValue_axes hs hac har r c i j hi hj (by rwa [← er]) (by rwa [← ec])] at hv
  have hv' := Except.ok.inj hv
  subst hv'
  rcases refinePixel_cases hp with ⟨he, -⟩ | ⟨hnan, n1, n2, -⟩
  · rw [Cell.mk.injEq] at he
    exact he.2.2
  · exfalso
    simp only at hnan n1 n2
    rcases he with he | he | he
    · rw [he] at hnan; simp [F.isNaN] at hnan
    · rw [← atEnd_iff] at he; rw [he] at n1; simp at n1
    · rw [← atEnd_iff] at he; rw [he] at n2; simp at n2

/-! ## C61 -/

/-- C61: when the grids of the left image do not have the shape of the cost volumes, the method always raises (ValueError, unless the
selection of the costs raised before). -/
theorem C61_other_shape_raises (hsh : g.rowMin.h ≠ cv.row.n ∨ g.rowMin.w ≠ cv.col.n) :
    ∃ e, refinementMethod f it cv invalid rowMap colMap g = .error e := by
  cases ho : refinementMethod f it cv invalid rowMap colMap g with
  | error e => exact ⟨e, rfl⟩
  | ok out =>
    exfalso
    unfold refinementMethod at ho
    simp only [bind, Except.bind] at ho
    split at ho
    · simp at ho
    · have : sameShape cv.row.n cv.col.n g.rowMin = false := by
        unfold sameShape
        rw [decide_eq_false_iff_not]
        omega
      simp [this] at ho

end

end Verif.Props
