import Verif.Props.Dichotomy
import Verif.Props.Sinc
import Verif.Props.OwnRange

/-!
# C45, C46, C61, C62: candidates, resampling windows, and the dichotomy after the other steps
-/

set_option linter.unusedSectionVars false

namespace Verif.Props

open Verif Verif.Filters Verif.Disparity Verif.Dichotomy Verif.Spec Verif.MatchingCost Verif.ImgTools

variable {K : Type} [Field K] [LinearOrder K] [IsStrictOrderedRing K] [FloorRing K]

/-! ## C45 -/

section
variable {m : Measure} {f : IFilter K} {subpix : Nat} {surface : Arr2 (F K)} {p p' : Point K} {x : K}

/-- The candidates of a search: the value of the filter at each of the nine positions, except the fifth, which is the current cost. -/
def IsCandidate (f : IFilter K) (subpix : Nat) (surface : Arr2 (F K)) (p : Point K) (x : K) (i : Nat) (v : F K) : Prop :=
  (i = 4 ∧ v = p.cost) ∨ (i ≠ 4 ∧ ∃ a b : Int, moves[i]? = some (a, b) ∧
    interpolate1 f surface (a * x * subpix + p.posRow, b * x * subpix + p.posCol) = .ok v)

theorem candidate_of {l : List (F K)} (hl : interpolate f surface (positions subpix x p) = .ok l) {i : Nat} {v : F K}
    (hv : (l.set 4 p.cost)[i]? = some v) : IsCandidate f subpix surface p x i v := by
  have hlen : l.length = 9 := by rw [interpolate_length f surface _ l hl]; rfl
  have hi : i < 9 := by
    by_contra hc
    rw [List.getElem?_eq_none (by simp [hlen]; omega)] at hv
    simp at hv
  by_cases h4 : i = 4
  · subst h4
    rw [List.getElem?_set_self (by omega)] at hv
    exact .inl ⟨rfl, (Option.some.inj hv).symm⟩
  · right
    rw [List.getElem?_set_ne (by omega), List.getElem?_eq_getElem (by omega)] at hv
    have hv' := Option.some.inj hv
    have hm : i < moves.length := hi
    have := interpolate_get f surface _ l hl i (by simpa [positions, moves] using hi) (by omega)
    refine ⟨h4, (moves[i]).1, (moves[i]).2, by rw [List.getElem?_eq_getElem hm], ?_⟩
    rw [hv'] at this
    rw [← this]
    simp [positions]

theorem candidate_unique {i : Nat} {v w : F K} (hv : IsCandidate f subpix surface p x i v) (hw : IsCandidate f subpix surface p x i w) :
    v = w := by
  rcases hv with ⟨h1, rfl⟩ | ⟨h1, a, b, hm, hi⟩ <;> rcases hw with ⟨h2, rfl⟩ | ⟨h2, a', b', hm', hi'⟩
  · rfl
  · exact absurd h1 h2
  · exact absurd h2 h1
  · rw [hm] at hm'
    simp only [Option.some.injEq, Prod.mk.injEq] at hm'
    obtain ⟨rfl, rfl⟩ := hm'
    rw [hi] at hi'
    exact Except.ok.inj hi'

/-- The search selects one of the nine candidates, which no candidate improves, and moves to its position. -/
theorem search_selects (h : search m f subpix surface p x = .ok p') (h1 : p.cost ≠ .nan) (h2 : p.cost ≠ worstOf m) :
    ∃ i, IsCandidate f subpix surface p x i p'.cost ∧ p'.cost ≠ .nan ∧
      (∃ a b : Int, moves[i]? = some (a, b) ∧ p'.dispRow = p.dispRow + a * x ∧ p'.dispCol = p.dispCol + b * x) ∧
      ∀ j v, IsCandidate f subpix surface p x j v → v ≠ .nan → AtLeastAsGood m p'.cost v := by
  have h1' : p.cost.isNaN = false := by cases hc : p.cost <;> simp_all [F.isNaN]
  obtain ⟨l, i, s, v, hl, hlen, hs, hv, rfl, hi⟩ := search_ok h
  have hset : ∀ j w, IsCandidate f subpix surface p x j w → (l.set 4 p.cost)[j]? = some w := by
    intro j w hw
    have hj : j < 9 := by
      rcases hw with ⟨rfl, -⟩ | ⟨-, a, b, hm, -⟩
      · omega
      · by_contra hc
        rw [List.getElem?_eq_none (by simp [moves]; omega)] at hm
        simp at hm
    have hjl : j < (l.set 4 p.cost).length := by simp [hlen, hj]
    have := candidate_of hl (List.getElem?_eq_getElem hjl)
    rw [candidate_unique hw this]
    exact List.getElem?_eq_getElem hjl
  have h4 : (l.set 4 p.cost)[4]? = some p.cost := by rw [List.getElem?_set_self (by omega)]
  have hmv : ∃ a b : Int, moves[i]? = some (a, b) ∧ (moved subpix p x s v).dispRow = p.dispRow + a * x ∧
      (moved subpix p x s v).dispCol = p.dispCol + b * x :=
    ⟨s.1, s.2, hs, by simp only [moved]; ring, by simp only [moved]; ring⟩
  split_ifs at hi with ha
  · subst hi
    rw [h4] at hv
    have hv' := Option.some.inj hv
    subst hv'
    refine ⟨4, .inl ⟨rfl, rfl⟩, h1, hmv, ?_⟩
    intro j w hw hwn
    have hmem := List.mem_of_getElem? (hset j w hw)
    have hmem4 := List.mem_of_getElem? h4
    -- all the same
    have hsame : ∀ a ∈ l.set 4 p.cost, ∀ b ∈ l.set 4 p.cost, a = b := by
      cases hcl : l.set 4 p.cost with
      | nil => simp
      | cons y ys =>
        rw [hcl] at ha
        unfold allSame at ha
        rw [List.all_eq_true] at ha
        have hy : ∀ a ∈ y :: ys, y = a := by
          intro a hma
          rcases List.mem_cons.1 hma with rfl | hma
          · rfl
          · exact (F.eq_iff.1 (ha a hma)).1
        intro a hma b hmb
        rw [← hy a hma, ← hy b hmb]
    have e := hsame _ hmem _ hmem4
    subst e
    exact le_of_not_better hwn hwn (Measure.better_irrefl _ _)
  · obtain ⟨v', hv', a, b, c, -⟩ := nanArg_spec m _ i hi ⟨p.cost, List.mem_of_getElem? h4, h1', by rw [worst_eq]; exact h2⟩
    rw [hv] at hv'
    have e := Option.some.inj hv'
    subst e
    have hvn : v ≠ .nan := by rintro rfl; simp [F.isNaN] at a
    exact ⟨i, candidate_of hl hv, hvn, hmv, fun j w hw hwn => le_of_not_better hwn hvn (c w (List.mem_of_getElem? (hset j w hw)))⟩

/-- C45 (partial: strictly worse instead of not better; ties are the subject of `C45_false_ties`): when all the other candidates are
NaN or strictly worse than the current cost, the point does not move. -/
theorem C45_no_move_partial (h : search m f subpix surface p x = .ok p') (h1 : p.cost ≠ .nan) (h2 : p.cost ≠ worstOf m)
    (hc : ∀ i v, i ≠ 4 → IsCandidate f subpix surface p x i v → v = .nan ∨ ¬ AtLeastAsGood m v p.cost) :
    p'.dispRow = p.dispRow ∧ p'.dispCol = p.dispCol ∧ p'.cost = p.cost := by
  obtain ⟨i, hi, hn, ⟨a, b, hm, e1, e2⟩, hbest⟩ := search_selects h h1 h2
  by_cases h4 : i = 4
  · subst h4
    rcases hi with ⟨-, hv⟩ | ⟨hne, -⟩
    · have : (a, b) = ((0, 0) : Int × Int) := by
        have : moves[4]? = some (0, 0) := rfl
        rw [this] at hm
        exact (Option.some.inj hm).symm
      rw [Prod.mk.injEq] at this
      rw [e1, e2, this.1, this.2]
      simp [hv]
    · exact absurd rfl hne
  · exfalso
    rcases hc i _ h4 hi with hnan | hw
    · exact hn hnan
    · exact hw (hbest 4 p.cost (.inl ⟨rfl, rfl⟩) h1)

/-- C45 (partial): when all the candidates have the same value, the point does not move. -/
theorem C45_flat_partial (h : search m f subpix surface p x = .ok p') (h1 : p.cost ≠ .nan)
    (hc : ∀ i v, IsCandidate f subpix surface p x i v → v = p.cost) :
    p'.dispRow = p.dispRow ∧ p'.dispCol = p.dispCol ∧ p'.cost = p.cost := by
  obtain ⟨l, i, s, v, hl, hlen, hs, hv, rfl, hi⟩ := search_ok h
  have h1' : p.cost.isNaN = false := by cases hc : p.cost <;> simp_all [F.isNaN]
  have hall : ∀ y ∈ l.set 4 p.cost, y = p.cost := by
    intro y hy
    obtain ⟨j, hj, rfl⟩ := List.getElem_of_mem hy
    exact hc j _ (candidate_of hl (List.getElem?_eq_getElem hj))
  have hsame : allSame (l.set 4 p.cost) = true := by
    cases hcl : l.set 4 p.cost with
    | nil =>
      have : (l.set 4 p.cost).length = 0 := by rw [hcl]; rfl
      simp [hlen] at this
    | cons y ys =>
      rw [hcl] at hall
      unfold allSame
      rw [List.all_eq_true]
      intro z hz
      rw [F.eq_iff, hall y List.mem_cons_self, hall z (List.mem_cons_of_mem _ hz)]
      exact ⟨rfl, h1'⟩
  rw [if_pos hsame] at hi
  subst hi
  have hs' : s = (0, 0) := (Option.some.inj hs).symm
  subst hs'
  have hv' : v = p.cost := hall v (List.mem_of_getElem? hv)
  subst hv'
  simp [moved]

end

/-- C45, full statement: when no candidate is strictly better than the current cost, the point does not move. -/
def C45Statement : Prop :=
  ∀ (m : Measure) (surface : Arr2 (F ℚ)) (p p' : Point ℚ) (x : ℚ), search m bicubic 1 surface p x = .ok p' → p.cost ≠ .nan →
    (∀ i v, IsCandidate bicubic 1 surface p x i v → v ≠ .nan → AtLeastAsGood m p.cost v) →
    p'.dispRow = p.dispRow ∧ p'.dispCol = p.dispCol

/-- A paraboloid whose minimum is at equal distance of four candidates, the current point being one of them. -/
def tieSurface : Arr2 (F ℚ) := ⟨8, 8, fun i j => .fin (((i : ℚ) - 3 + 1 / 4) ^ 2 + ((j : ℚ) - 3 + 1 / 4) ^ 2)⟩

/-- C45 is false with ties: the first of the candidates of equal cost is taken, here the one of the upper left corner. -/
theorem C45_false_ties : ¬ C45Statement := by
  intro h
  have hc : ∀ i v, IsCandidate bicubic 1 tieSurface ⟨3, 3, 0, 0, .fin (1 / 8)⟩ (1 / 2) i v → v ≠ .nan →
      AtLeastAsGood .min (.fin (1 / 8) : F ℚ) v := by
    intro i v hv _
    rcases hv with ⟨-, rfl⟩ | ⟨-, a, b, hm, hi⟩
    · show AtLeastAsGood .min (.fin (1 / 8) : F ℚ) (.fin (1 / 8))
      simp [AtLeastAsGood, F.le]
    · have key : ∀ s ∈ moves, (match interpolate1 bicubic tieSurface ((s.1 : ℚ) * (1 / 2) * (1 : Nat) + 3, (s.2 : ℚ) * (1 / 2) * (1 : Nat) + 3) with
          | .ok v => F.le (.fin (1 / 8)) v | .error _ => false) = true := by decide +kernel
      have := key (a, b) (List.mem_of_getElem? hm)
      rw [hi] at this
      exact this
  have hs : ∃ p', search .min bicubic 1 tieSurface ⟨3, 3, 0, 0, .fin (1 / 8)⟩ (1 / 2) = .ok p' ∧ p'.dispRow = -1 / 2 := by
    have key : (match search .min bicubic 1 tieSurface ⟨3, 3, 0, 0, .fin (1 / 8)⟩ (1 / 2) with
      | .ok p' => decide (p'.dispRow = -1 / 2) | .error _ => false) = true := by decide +kernel
    split at key
    · rename_i p' hp'
      exact ⟨p', hp', by simpa using key⟩
    · simp at key
  obtain ⟨p', hp', hd⟩ := hs
  have := (h .min tieSurface ⟨3, 3, 0, 0, .fin (1 / 8)⟩ p' (1 / 2) hp' (by simp) hc).1
  rw [hd] at this
  norm_num at this

/-- A paraboloid with its minimum at the current point: the hypotheses of `C45_no_move_partial` hold (all the other candidates are
strictly worse) and the search keeps the point. -/
def bowl : Arr2 (F ℚ) := ⟨8, 8, fun i j => .fin (((i : ℚ) - 3) ^ 2 + ((j : ℚ) - 3) ^ 2)⟩

example : (∀ s ∈ moves, s ≠ (0, 0) →
      (match interpolate1 bicubic bowl ((s.1 : ℚ) * (1 / 2) * (1 : Nat) + 3, (s.2 : ℚ) * (1 / 2) * (1 : Nat) + 3) with
        | .ok v => F.lt (.fin 0) v | .error _ => false) = true) ∧
    (match search .min bicubic 1 bowl ⟨3, 3, 0, 0, .fin 0⟩ (1 / 2) with
      | .ok p' => decide (p'.dispRow = 0 ∧ p'.dispCol = 0 ∧ p'.cost = .fin 0) | .error _ => false) = true := by decide +kernel

/-! ## C46 -/

/-- The filter has coefficients for all the fractional parts of the lattice of step `2 ^ -it`. -/
def HasCoeffs (f : IFilter K) (it : Nat) : Prop :=
  ∀ x : K, 0 ≤ x → (∃ n : Int, x * 2 ^ it = n) → ∃ a, f.coeffs (fracPart x) = .ok a ∧ a.n = f.size

theorem bicubic_has_coeffs (it : Nat) : HasCoeffs (bicubic : IFilter K) it := fun _ _ _ => ⟨_, rfl, rfl⟩

/-- The cardinal sine filter of the dichotomy is built for the fractional shift `2 ^ -iterations`; there are at most nine iterations. -/
theorem sinc_has_coeffs (n it : Nat) (h9 : it ≤ 9) : HasCoeffs (cardinalSine n (2 ^ it)) it := by
  intro x hx ⟨k, hk⟩
  have hm : (0 : ℝ) < 2 ^ it := by positivity
  have hxe : x = (k : ℝ) / 2 ^ it := by field_simp; exact hk
  -- the fractional part
  have hk' : Int.fract x = ((k - ⌊x⌋ * 2 ^ it : Int) : ℝ) / ((2 ^ it : Nat) : ℝ) := by
    rw [Int.fract, hxe]
    push_cast
    field_simp
  have hj0 : 0 ≤ k - ⌊x⌋ * 2 ^ it := by
    have := Int.fract_nonneg x
    rw [hk'] at this
    push_cast at this
    have h2 := (le_div_iff₀ hm).1 this
    rw [zero_mul] at h2
    exact_mod_cast h2
  have hj1 : k - ⌊x⌋ * 2 ^ it < 2 ^ it := by
    have := Int.fract_lt_one x
    rw [hk'] at this
    push_cast at this
    rw [div_lt_one hm] at this
    exact_mod_cast this
  obtain ⟨j, hj⟩ := Int.eq_ofNat_of_zero_le hj0
  rw [hj] at hk' hj1
  have hj1' : j < 2 ^ it := by exact_mod_cast hj1
  have hfp : fracPart x = (j : ℝ) / ((2 ^ it : Nat) : ℝ) := by
    rw [fracPart_eq x hx, hk']
    · push_cast; rfl
    · rw [hk']
      have hjle : (j : ℝ) + 1 ≤ 2 ^ it := by exact_mod_cast hj1'
      have h9' : (2 : ℝ) ^ it ≤ 2 ^ 9 := pow_le_pow_right₀ (by norm_num) h9
      unfold eps
      push_cast
      have h3 : ((j : ℝ)) / 2 ^ it ≤ 1 - 1 / 2 ^ it := by
        rw [div_le_iff₀ hm, sub_mul, one_mul, div_mul_cancel₀ _ hm.ne']
        linarith
      have h4 : (1 : ℝ) / 2 ^ 9 ≤ 1 / 2 ^ it := one_div_le_one_div_of_le hm h9'
      have h5 : (1 : ℝ) / 2 ^ 23 ≤ 1 / 2 ^ 9 := by norm_num
      linarith
  rw [hfp, C48_row_of_table n (2 ^ it) j hj1']
  exact ⟨_, rfl, by simp [cardinalSine]; omega⟩

/-- Window of one axis. -/
theorem window_axis {n i ml mr s left size : Nat} (hs : 0 < s) (h : ml * s + 1 ≤ i ∧ i + mr * s + 2 ≤ n) {x : K}
    (hx : |x - (i : K)| < 1) (hl : left ≤ ml) (hsz : size ≤ left + mr + 2) :
    0 ≤ ⌊x⌋ - (left : Int) ∧ ⌊x⌋ - (left : Int) + size ≤ n ∧ 0 ≤ x := by
  rw [abs_lt] at hx
  have a1 : ml ≤ ml * s := Nat.le_mul_of_pos_right _ hs
  have a2 : mr ≤ mr * s := Nat.le_mul_of_pos_right _ hs
  have f1 : (i : Int) - 1 ≤ ⌊x⌋ := by
    rw [Int.le_floor]
    push_cast
    linarith [hx.1]
  have f2 : ⌊x⌋ < (i : Int) + 1 := by
    rw [Int.floor_lt]
    push_cast
    linarith [hx.2]
  refine ⟨by omega, by omega, ?_⟩
  have : (1 : K) ≤ i := by
    have : 1 ≤ i := by omega
    exact_mod_cast this
  linarith [hx.1]

section
variable {f : IFilter K} {it k : Nat} {cv : CostVolumes K} {invalid : F K} {rowMap colMap : Arr2 (F K)} {g : Grids} {out : Maps K}
  {mg : Margins} {cl ch rl rh : Int}

/-- Positions within reach of a pixel strictly inside its range. -/
theorem reach_inside (hs : cv.subpixel = 2 ^ k) (hac : IsAxis cv.dispCol cl ch mg.left mg.right cv.subpixel)
    (har : IsAxis cv.dispRow rl rh mg.up mg.down cv.subpixel) (hfit : FitsMargins f.left f.up f.size mg) {i j : Nat}
    (hi : i < cv.dispCol.n) (hj : j < cv.dispRow.n) (c1 : (cl : K) < cv.dispCol.get i) (c2 : cv.dispCol.get i < (ch : K))
    (r1 : (rl : K) < cv.dispRow.get j) (r2 : cv.dispRow.get j < (rh : K)) {p0 : Point K} (e1 : p0.posRow = j) (e2 : p0.posCol = i)
    {e x y : K} (he : e ≤ (precisions (2 ^ k) it : List K).sum) (hre : Reach cv.subpixel (1 / 2 ^ it) p0 e x y) (r c : Nat) :
    (AreaInside (surfaceAt cv r c) (⌊y⌋ - f.left) (⌊x⌋ - f.up) f.size ∧ 0 ≤ x ∧ 0 ≤ y) ∧
      (∃ n : Int, x * 2 ^ it = n) ∧ ∃ n : Int, y * 2 ^ it = n := by
  have hsub : 0 < cv.subpixel := by rw [hs]; positivity
  obtain ⟨b1, b2, ⟨n1, g1⟩, ⟨n2, g2⟩⟩ := hre
  have hlt : e * (cv.subpixel : K) < 1 := by
    have hp : (0 : K) < 2 ^ k := by positivity
    have hq : (0 : K) < 1 / 2 ^ it := by positivity
    rw [hs]
    push_cast
    have he' : e < 1 / 2 ^ k := by
      by_cases hk : k ≤ it
      · rw [precisions_sum k it hk] at he; linarith
      · rw [precisions_nil k it (by omega), List.sum_nil] at he
        have : (0 : K) < 1 / 2 ^ k := by positivity
        linarith
    rwa [lt_div_iff₀ hp] at he'
  rw [e1] at b1 g1
  rw [e2] at b2 g2
  obtain ⟨⟨m1, m2⟩, ⟨m3, m4⟩⟩ := hfit
  obtain ⟨w1, w2, w3⟩ := window_axis hsub (axis_strict hsub hac hi c1 c2) (lt_of_le_of_lt b2 hlt) m1 m2
  obtain ⟨v1, v2, v3⟩ := window_axis hsub (axis_strict hsub har hj r1 r2) (lt_of_le_of_lt b1 hlt) m3 m4
  have hq : (2 : K) ^ it ≠ 0 := by positivity
  refine ⟨⟨⟨w1, w2, v1, v2⟩, v3, w3⟩, ⟨n1 * cv.subpixel + j * 2 ^ it, ?_⟩, ⟨n2 * cv.subpixel + i * 2 ^ it, ?_⟩⟩
  · rw [sub_eq_iff_eq_add] at g1
    rw [g1]; push_cast; field_simp
  · rw [sub_eq_iff_eq_add] at g2
    rw [g2]; push_cast; field_simp

/-- C46: for a pixel strictly inside its ranges, after any number of iterations without error, each of the nine windows requested at
the next precision is inside the cost surface of the pixel, for every filter which fits in the margins of the axes. -/
theorem C46_windows_inside (hs : cv.subpixel = 2 ^ k) (hac : IsAxis cv.dispCol cl ch mg.left mg.right cv.subpixel)
    (har : IsAxis cv.dispRow rl rh mg.up mg.down cv.subpixel) (hfit : FitsMargins f.left f.up f.size mg) {i j : Nat}
    (hi : i < cv.dispCol.n) (hj : j < cv.dispRow.n) (c1 : (cl : K) < cv.dispCol.get i) (c2 : cv.dispCol.get i < (ch : K))
    (r1 : (rl : K) < cv.dispRow.get j) (r2 : cv.dispRow.get j < (rh : K)) (r c : Nat) (ys zs : List K) (x : K)
    (hprec : precisions cv.subpixel it = ys ++ x :: zs) (v : F K) (p1 : Point K)
    (hl : loop cv.measure f cv.subpixel ⟨cv.dispCol.n, cv.dispRow.n, cv.data r c⟩
      ⟨searchAxis cv.dispRow (cv.dispRow.get j), searchAxis cv.dispCol (cv.dispCol.get i), cv.dispRow.get j, cv.dispCol.get i, v⟩ ys
        = .ok p1) (q : K × K) (hq : q ∈ positions cv.subpixel x p1) :
    AreaInside (⟨cv.dispCol.n, cv.dispRow.n, cv.data r c⟩ : Arr2 (F K)) (⌊q.2⌋ - f.left) (⌊q.1⌋ - f.up) f.size := by
  have hsub : 0 < cv.subpixel := by rw [hs]; positivity
  have hn := precisions_nonneg (K := K) k it
  have hq' := precisions_lattice (K := K) k it
  rw [← hs, hprec] at hn hq'
  have hre := reach_of_prefix (fun y hy => hn y (by simp [hy])) (hn x (by simp)) (fun y hy => hq' y (by simp [hy])) (hq' x (by simp))
    hl (c := q.1) (r := q.2) hq
  refine (reach_inside hs hac har hfit hi hj c1 c2 r1 r2 (by rw [searchAxis_get hsub har hj])
    (by rw [searchAxis_get hsub hac hi]) ?_ hre r c).1.1
  rw [← hs, hprec, List.sum_append, List.sum_cons]
  have : 0 ≤ zs.sum := List.sum_nonneg fun y hy => hn y (by simp [hy])
  linarith

theorem interpolate1_ok {surface : Arr2 (F K)} {x y : K} (h : AreaInside surface (⌊y⌋ - f.left) (⌊x⌋ - f.up) f.size)
    (hx : ∃ a, f.coeffs (fracPart x) = .ok a ∧ a.n = f.size) (hy : ∃ a, f.coeffs (fracPart y) = .ok a ∧ a.n = f.size) :
    ∃ v, interpolate1 f surface (x, y) = .ok v := by
  obtain ⟨a, ha, hna⟩ := hx
  obtain ⟨b, hb, hnb⟩ := hy
  obtain ⟨s1, s2, -⟩ := area_inside f surface x y h
  unfold interpolate1 apply
  simp only [ha, hb]
  rw [if_neg (by rw [s1, hnb]; simp), if_neg (by rw [s2, hna]; simp)]
  exact ⟨_, rfl⟩

/-- The refinement of one pixel does not raise. -/
theorem pixel_total (hs : cv.subpixel = 2 ^ k) (hac : IsAxis cv.dispCol cl ch mg.left mg.right cv.subpixel)
    (har : IsAxis cv.dispRow rl rh mg.up mg.down cv.subpixel) (hfit : FitsMargins f.left f.up f.size mg) (hco : HasCoeffs f it)
    {i j : Nat} (hi : i < cv.dispCol.n) (hj : j < cv.dispRow.n) {rmin rmax cmin cmax : Int} (g1 : rl ≤ rmin) (g2 : rmax ≤ rh)
    (g3 : cl ≤ cmin) (g4 : cmax ≤ ch) (c1 : (cmin : K) ≤ cv.dispCol.get i) (c2 : cv.dispCol.get i ≤ (cmax : K))
    (r1 : (rmin : K) ≤ cv.dispRow.get j) (r2 : cv.dispRow.get j ≤ (rmax : K)) (r c : Nat) {v : F K} (hw : v ≠ worstOf cv.measure) :
    ∃ x, refinePixel cv.measure f cv.subpixel it cv.dispCol cv.dispRow (surfaceAt cv r c) rmin rmax cmin cmax
      ⟨.fin (cv.dispRow.get j), .fin (cv.dispCol.get i), v⟩ = .ok x := by
  have hsub : 0 < cv.subpixel := by rw [hs]; positivity
  unfold refinePixel
  simp only
  split_ifs with h1 h2 h3
  · exact ⟨_, rfl⟩
  · exact ⟨_, rfl⟩
  · exact ⟨_, rfl⟩
  · have e2 := atEnd_false (by simpa using h2 : atEnd (.fin (cv.dispRow.get j)) rmin rmax = false)
    have e3 := atEnd_false (by simpa using h3 : atEnd (.fin (cv.dispCol.get i)) cmin cmax = false)
    have k1 : (rl : K) ≤ rmin := by exact_mod_cast g1
    have k2 : (rmax : K) ≤ rh := by exact_mod_cast g2
    have k3 : (cl : K) ≤ cmin := by exact_mod_cast g3
    have k4 : (cmax : K) ≤ ch := by exact_mod_cast g4
    have hn := precisions_nonneg (K := K) k it
    have hq := precisions_lattice (K := K) k it
    rw [← hs] at hn hq
    obtain ⟨p', hp'⟩ := loop_total (m := cv.measure) (f := f) (subpix := cv.subpixel) (surface := surfaceAt cv r c)
      (q := 1 / 2 ^ it)
      ⟨searchAxis cv.dispRow (cv.dispRow.get j), searchAxis cv.dispCol (cv.dispCol.get i), cv.dispRow.get j, cv.dispCol.get i, v⟩
      (precisions cv.subpixel it) hn hq (by simpa using h1) (by rw [worst_eq]; exact hw) (by
        intro _ x y hre
        obtain ⟨⟨a1, a2, a3⟩, a4, a5⟩ := reach_inside hs hac har hfit hi hj
          (k3.trans_lt (lt_of_le_of_ne c1 (Ne.symm e3.1))) ((lt_of_le_of_ne c2 e3.2).trans_le k4)
          (k1.trans_lt (lt_of_le_of_ne r1 (Ne.symm e2.1))) ((lt_of_le_of_ne r2 e2.2).trans_le k2)
          (by rw [searchAxis_get hsub har hj]) (by rw [searchAxis_get hsub hac hi]) (by rw [hs]) hre r c
        exact interpolate1_ok a1 (hco x a2 a4) (hco y a3 a5))
    rw [hp']
    exact ⟨_, rfl⟩

/-- C46: the whole method does not raise on maps selected in the axes (or invalid), within the ranges of the pixels. -/
theorem C46_never_raises (hs : cv.subpixel = 2 ^ k) (hac : IsAxis cv.dispCol cl ch mg.left mg.right cv.subpixel)
    (har : IsAxis cv.dispRow rl rh mg.up mg.down cv.subpixel) (hfit : FitsMargins f.left f.up f.size mg) (hco : HasCoeffs f it)
    (hsh : (g.rowMin.h = cv.row.n ∧ g.rowMin.w = cv.col.n) ∧ (g.rowMax.h = cv.row.n ∧ g.rowMax.w = cv.col.n) ∧
      (g.colMin.h = cv.row.n ∧ g.colMin.w = cv.col.n) ∧ (g.colMax.h = cv.row.n ∧ g.colMax.w = cv.col.n))
    (hg : ∀ r < cv.row.n, ∀ c < cv.col.n, rl ≤ g.rowMin.get r c ∧ g.rowMax.get r c ≤ rh ∧ cl ≤ g.colMin.get r c ∧
      g.colMax.get r c ≤ ch)
    (hw : ∀ r < cv.row.n, ∀ c < cv.col.n, ∀ i < cv.dispCol.n, ∀ j < cv.dispRow.n, cv.data r c i j ≠ worstOf cv.measure)
    (hmap : ∀ r < cv.row.n, ∀ c < cv.col.n, (IsMark invalid (rowMap.get r c) ∧ IsMark invalid (colMap.get r c)) ∨
      ((∃ j < cv.dispRow.n, rowMap.get r c = .fin (cv.dispRow.get j)) ∧ (∃ i < cv.dispCol.n, colMap.get r c = .fin (cv.dispCol.get i)) ∧
      DispInRange (g.rowMin.get r c) (g.rowMax.get r c) (rowMap.get r c) ∧
      DispInRange (g.colMin.get r c) (g.colMax.get r c) (colMap.get r c))) :
    ∃ out, refinementMethod f it cv invalid rowMap colMap g = .ok out := by
  have hsub : 0 < cv.subpixel := by rw [hs]; positivity
  have hn1 : 0 < cv.dispCol.n := by rw [hac.1]; omega
  have hn2 : 0 < cv.dispRow.n := by rw [har.1]; omega
  have hcost : ∀ r < cv.row.n, ∀ c < cv.col.n, ∃ v, costValue cv invalid (rowMap.get r c) (colMap.get r c) r c = .ok v ∧
      (v.isNaN = false → v ≠ worstOf cv.measure ∧ ¬ (IsMark invalid (rowMap.get r c) ∧ IsMark invalid (colMap.get r c))) := by
    intro r hr c hc
    by_cases hm : isInvalid invalid (rowMap.get r c) = true ∨ isInvalid invalid (colMap.get r c) = true
    · have hb : (isInvalid invalid (rowMap.get r c) || isInvalid invalid (colMap.get r c)) = true := by
        rcases hm with hm | hm <;> simp [hm]
      have s1 : ∃ j, selIndex cv.dispRow (if isInvalid invalid (rowMap.get r c) then .fin (cv.dispRow.get 0) else rowMap.get r c) = .ok j := by
        split_ifs with h1
        · exact ⟨0, selIndex_get hsub har hn2⟩
        · rcases hmap r hr c hc with ⟨a, -⟩ | ⟨⟨j, hj, e⟩, -⟩
          · exact absurd ((isInvalid_iff _ _).2 a) h1
          · rw [e]; exact ⟨j, selIndex_get hsub har hj⟩
      have s2 : ∃ i, selIndex cv.dispCol (if isInvalid invalid (colMap.get r c) then .fin (cv.dispCol.get 0) else colMap.get r c) = .ok i := by
        split_ifs with h1
        · exact ⟨0, selIndex_get hsub hac hn1⟩
        · rcases hmap r hr c hc with ⟨-, a⟩ | ⟨-, ⟨j, hj, e⟩, -⟩
          · exact absurd ((isInvalid_iff _ _).2 a) h1
          · rw [e]; exact ⟨j, selIndex_get hsub hac hj⟩
      obtain ⟨j, hj⟩ := s1
      obtain ⟨i, hi⟩ := s2
      refine ⟨.nan, ?_, by simp [F.isNaN]⟩
      unfold costValue
      simp only
      rw [if_neg (by omega), hj, hi]
      simp only [hb, if_true]
    · rw [not_or] at hm
      have m1 : ¬ IsMark invalid (rowMap.get r c) := fun h => hm.1 ((isInvalid_iff _ _).2 h)
      have m2 : ¬ IsMark invalid (colMap.get r c) := fun h => hm.2 ((isInvalid_iff _ _).2 h)
      rcases hmap r hr c hc with ⟨a, -⟩ | ⟨⟨j, hj, ej⟩, ⟨i, hi, ei⟩, -⟩
      · exact absurd a m1
      · refine ⟨cv.data r c i j, ?_, fun _ => ⟨hw r hr c hc i hi j hj, fun h => m1 h.1⟩⟩
        rw [ej] at m1 ⊢
        rw [ei] at m2 ⊢
        exact costValue_axes hsub hac har r c i j hi hj m1 m2
  obtain ⟨costs, hcosts⟩ := mapCells_ok (h := cv.row.n) (w := cv.col.n)
    (g := fun r c => costValue cv invalid (rowMap.get r c) (colMap.get r c) r c) .nan
    fun r hr c hc => ⟨_, (hcost r hr c hc).choose_spec.1⟩
  obtain ⟨-, -, hv⟩ := mapCells_get hcosts
  obtain ⟨o, ho⟩ := mapCells_ok (h := cv.row.n) (w := cv.col.n)
    (g := fun r c => refinePixel cv.measure f cv.subpixel it cv.dispCol cv.dispRow
      ⟨cv.dispCol.n, cv.dispRow.n, fun i j => cv.data r c i j⟩ (g.rowMin.get r c) (g.rowMax.get r c) (g.colMin.get r c)
      (g.colMax.get r c) ⟨rowMap.get r c, colMap.get r c, costs.get r c⟩) ⟨.nan, .nan, .nan⟩ (by
      intro r hr c hc
      obtain ⟨v, hv1, hv2⟩ := hcost r hr c hc
      have := hv r hr c hc
      rw [hv1] at this
      have hve := Except.ok.inj this
      rw [← hve]
      cases hnan : v.isNaN with
      | true => exact ⟨_, by unfold refinePixel; rw [if_pos hnan]⟩
      | false =>
        obtain ⟨w1, w2⟩ := hv2 hnan
        rcases hmap r hr c hc with a | ⟨⟨j, hj, ej⟩, ⟨i, hi, ei⟩, r1, r2⟩
        · exact absurd a w2
        · rw [ej] at r1 ⊢
          rw [ei] at r2 ⊢
          obtain ⟨x, ex, x1, x2⟩ := r1
          rw [F.fin.injEq] at ex; subst ex
          obtain ⟨y, ey, y1, y2⟩ := r2
          rw [F.fin.injEq] at ey; subst ey
          obtain ⟨q1, q2, q3, q4⟩ := hg r hr c hc
          exact pixel_total hs hac har hfit hco hi hj q1 q2 q3 q4 y1 y2 x1 x2 r c w1)
  refine ⟨⟨o.map Cell.row, o.map Cell.col, o.map Cell.cost⟩, ?_⟩
  unfold refinementMethod
  simp only [hcosts, bind, Except.bind]
  have hshape : (sameShape cv.row.n cv.col.n g.rowMin && sameShape cv.row.n cv.col.n g.rowMax && sameShape cv.row.n cv.col.n g.colMin &&
      sameShape cv.row.n cv.col.n g.colMax) = true := by
    simp [sameShape, hsh]
  rw [if_pos hshape]
  rw [ho]
  rfl

end

/-- The margins of the bicubic filter are large enough. -/
theorem C46_bicubic_fits : FitsMargins (bicubic : IFilter K).left (bicubic : IFilter K).up (bicubic : IFilter K).size bicubicMargins := by
  simp only [FitsMargins, bicubic, bicubicMargins]
  omega

/-- The margins of the cardinal sine filter are large enough. -/
theorem C46_sinc_fits (n m : Nat) :
    FitsMargins (cardinalSine n m).left (cardinalSine n m).up (cardinalSine n m).size (sincMargins n) := by
  simp only [FitsMargins, cardinalSine, sincMargins]
  omega

end Verif.Props
