import Verif.Spec.Zncc
import Verif.Props.Translation
import Mathlib.Analysis.Real.Sqrt

/-!
# The zero-mean normalised cross-correlation is a similarity
-/

namespace Verif.Props

open Verif Verif.ImgTools Verif.MatchingCost Verif.Spec Verif.Disparity

set_option linter.unusedSectionVars false

variable {K : Type} [Field K] [LinearOrder K] [IsStrictOrderedRing K] [FloorRing K]
variable {z : Zoom K} {cfg : Cfg} {roi : Option Roi} {left : Left K} {right : Img K} {margins : Option Margins} {cv : CostVolumes K}

/-- Cauchy-Schwarz for the pairs of a list. -/
theorem cauchy (l : List (K × K)) : (l.map fun p => p.1 * p.2).sum * (l.map fun p => p.1 * p.2).sum ≤
      (l.map fun p => p.1 * p.1).sum * (l.map fun p => p.2 * p.2).sum ∧
    0 ≤ (l.map fun p => p.1 * p.1).sum ∧ 0 ≤ (l.map fun p => p.2 * p.2).sum := by
  induction l with
  | nil => simp
  | cons p l ih =>
    obtain ⟨x, y⟩ := p
    simp only [List.map_cons, List.sum_cons]
    obtain ⟨h1, h2, h3⟩ := ih
    generalize (l.map fun p : K × K => p.1 * p.2).sum = S at *
    generalize (l.map fun p : K × K => p.1 * p.1).sum = A at *
    generalize (l.map fun p : K × K => p.2 * p.2).sum = B at *
    refine ⟨?_, by nlinarith [mul_self_nonneg x], by nlinarith [mul_self_nonneg y]⟩
    have key : 2 * (S * (x * y)) ≤ A * (y * y) + B * (x * x) := by
      have h4 : 0 ≤ A * (y * y) + B * (x * x) :=
        add_nonneg (mul_nonneg h2 (mul_self_nonneg _)) (mul_nonneg h3 (mul_self_nonneg _))
      have h5 : (2 * (S * (x * y))) ^ 2 ≤ (A * (y * y) + B * (x * x)) ^ 2 := by
        have h6 : S * S * ((x * y) * (x * y)) ≤ A * B * ((x * y) * (x * y)) := mul_le_mul_of_nonneg_right h1 (mul_self_nonneg _)
        nlinarith [mul_self_nonneg (A * (y * y) - B * (x * x))]
      exact le_trans (le_abs_self _) (abs_le_of_sq_le_sq h5 h4)
    nlinarith

/-- The moments of a list are those of the centred values. -/
theorem centred (f g : K × K → K) (l : List (K × K)) (hl : l ≠ []) :
    meanOf (fun p => f p * g p) l - meanOf f l * meanOf g l =
      ((l.map fun p => (f p - meanOf f l) * (g p - meanOf g l)).sum) / (l.length : K) := by
  have hn : (l.length : K) ≠ 0 := by
    have := List.length_pos_iff.2 hl
    positivity
  have hsum : ∀ (a b : K) (l : List (K × K)), (l.map fun p => (f p - a) * (g p - b)).sum =
      (l.map fun p => f p * g p).sum - b * (l.map f).sum - a * (l.map g).sum + (l.length : K) * (a * b) := by
    intro a b l
    induction l with
    | nil => simp
    | cons p l ih =>
      simp only [List.map_cons, List.sum_cons, List.length_cons, ih]
      push_cast
      ring
  rw [hsum]
  unfold meanOf
  field_simp
  ring

theorem finitePairs_equal : (l : List (F K × F K)) → (∀ p ∈ l, ∃ k, p = (.fin k, .fin k)) →
    ∃ m : List (K × K), finitePairs l = some m ∧ (∀ p ∈ m, p.1 = p.2) ∧ l = m.map fun p => (.fin p.1, .fin p.2)
  | [], _ => ⟨[], rfl, by simp, rfl⟩
  | p :: l, h => by
    obtain ⟨k, rfl⟩ := h p List.mem_cons_self
    obtain ⟨m, h1, h2, h3⟩ := finitePairs_equal l fun q hq => h q (List.mem_cons_of_mem _ hq)
    refine ⟨(k, k) :: m, by simp [finitePairs, h1], ?_, by simp [← h3]⟩
    intro p hp
    rcases List.mem_cons.1 hp with rfl | hp
    · rfl
    · exact h2 p hp

theorem sum_sq_pos : (l : List K) → (∃ x ∈ l, x ≠ 0) → 0 < (l.map fun x => x * x).sum
  | [], h => by simp at h
  | x :: l, h => by
    simp only [List.map_cons, List.sum_cons]
    have hnn : 0 ≤ (l.map fun x => x * x).sum := List.sum_nonneg (by simp only [List.mem_map]; rintro _ ⟨y, -, rfl⟩; exact mul_self_nonneg y)
    by_cases hx : x = 0
    · obtain ⟨y, hy, hy0⟩ := h
      rcases List.mem_cons.1 hy with rfl | hy
      · exact absurd hx hy0
      · have := sum_sq_pos l ⟨y, hy, hy0⟩
        have := mul_self_nonneg x
        linarith
    · have : 0 < x * x := mul_self_pos.2 hx
      linarith

/-- The correlation is at most one. -/
theorem znccOf_le {sqrt : K → K} (hs : SqrtContract sqrt) (l : List (K × K)) : znccOf sqrt l ≤ 1 := by
  unfold znccOf
  simp only
  split_ifs with h0
  · exact zero_le_one
  · by_cases hl : l = []
    · subst hl
      simp [meanOf]
    have hn : (0 : K) < (l.length : K) := by
      have := List.length_pos_iff.2 hl
      exact_mod_cast this
    rw [centred Prod.fst Prod.fst l hl, centred Prod.snd Prod.snd l hl] at *
    rw [centred Prod.fst Prod.snd l hl]
    have hc := cauchy (l.map fun p => (p.1 - meanOf Prod.fst l, p.2 - meanOf Prod.snd l))
    simp only [List.map_map, Function.comp_def] at hc
    generalize (l.map fun p : K × K => (p.1 - meanOf Prod.fst l) * (p.2 - meanOf Prod.snd l)).sum = C at *
    generalize (l.map fun p : K × K => (p.1 - meanOf Prod.fst l) * (p.1 - meanOf Prod.fst l)).sum = A at *
    generalize (l.map fun p : K × K => (p.2 - meanOf Prod.snd l) * (p.2 - meanOf Prod.snd l)).sum = B at *
    obtain ⟨c1, c2, c3⟩ := hc
    obtain ⟨a1, a2⟩ := hs (A / l.length) (by positivity)
    obtain ⟨b1, b2⟩ := hs (B / l.length) (by positivity)
    have hpos : 0 < sqrt (A / l.length) * sqrt (B / l.length) := lt_of_le_of_ne (mul_nonneg a1 b1) (Ne.symm h0)
    rw [div_le_one hpos]
    apply le_trans (le_abs_self _)
    apply abs_le_of_sq_le_sq _ hpos.le
    have e1 : (sqrt (A / l.length) * sqrt (B / l.length)) ^ 2 = A / l.length * (B / l.length) := by
      rw [sq]
      calc _ = sqrt (A / l.length) * sqrt (A / l.length) * (sqrt (B / l.length) * sqrt (B / l.length)) := by ring
        _ = _ := by rw [a2, b2]
    rw [e1, sq, div_mul_div_comm, div_mul_div_comm]
    exact div_le_div_of_nonneg_right c1 (by positivity)

/-- The correlation of two equal windows which are not constant is one. -/
theorem znccOf_one {sqrt : K → K} (hs : SqrtContract sqrt) (l : List (K × K)) (he : ∀ p ∈ l, p.1 = p.2)
    (hd : ∃ p ∈ l, ∃ q ∈ l, p ≠ q) : znccOf sqrt l = 1 := by
  obtain ⟨p, hp, q, hq, hpq⟩ := hd
  have hl : l ≠ [] := List.ne_nil_of_mem hp
  have hn : (0 : K) < (l.length : K) := by
    have := List.length_pos_iff.2 hl
    exact_mod_cast this
  have e1 : l.map Prod.snd = l.map Prod.fst := List.map_congr_left fun p hp => (he p hp).symm
  have e2 : (l.map fun p => p.2 * p.2) = l.map fun p => p.1 * p.1 := List.map_congr_left fun p hp => by rw [he p hp]
  have e3 : (l.map fun p => p.1 * p.2) = l.map fun p => p.1 * p.1 := List.map_congr_left fun p hp => by rw [he p hp]
  have m1 : meanOf Prod.snd l = meanOf Prod.fst l := by unfold meanOf; rw [e1]
  have m2 : meanOf (fun p => p.2 * p.2) l = meanOf (fun p => p.1 * p.1) l := by unfold meanOf; rw [e2]
  have m3 : meanOf (fun p => p.1 * p.2) l = meanOf (fun p => p.1 * p.1) l := by unfold meanOf; rw [e3]
  unfold znccOf
  simp only [m1, m2, m3]
  have hpos : 0 < meanOf (fun p => p.1 * p.1) l - meanOf Prod.fst l * meanOf Prod.fst l := by
    rw [centred Prod.fst Prod.fst l hl]
    apply div_pos _ hn
    have := sum_sq_pos (l.map fun p => p.1 - meanOf Prod.fst l) (by
      by_contra hcon
      push Not at hcon
      have h1 := hcon _ (List.mem_map.2 ⟨p, hp, rfl⟩)
      have h2 := hcon _ (List.mem_map.2 ⟨q, hq, rfl⟩)
      apply hpq
      have h3 : p.1 = q.1 := by linarith
      exact Prod.ext h3 (by rw [← he p hp, ← he q hq, h3]))
    simpa [List.map_map, Function.comp_def] using this
  obtain ⟨a1, a2⟩ := hs _ hpos.le
  rw [a2, if_neg hpos.ne', div_self hpos.ne']

/-- The correlation is a similarity. -/
theorem zncc_similarity {sqrt : K → K} (hs : SqrtContract sqrt) : Similarity (zncc sqrt) := by
  refine ⟨?_, ?_, ?_⟩
  · intro l
    unfold zncc
    split
    · simpa [F.lt] using znccOf_le hs _
    · rfl
  · intro l h hd
    obtain ⟨m, h1, h2, h3⟩ := finitePairs_equal l h
    unfold zncc
    rw [h1]
    simp only [F.fin.injEq]
    apply znccOf_one hs m h2
    obtain ⟨p, hp, q, hq, hpq⟩ := hd
    rw [h3, List.mem_map] at hp hq
    obtain ⟨x, hx, rfl⟩ := hp
    obtain ⟨y, hy, rfl⟩ := hq
    exact ⟨x, hx, y, hy, fun e => hpq (by rw [e])⟩
  · intro l
    unfold zncc
    split <;> simp

/-- The window of a similarity at the right displacement. -/
theorem window_one {hw : Nat} {ker : List (F K × F K) → F K} (hk : Similarity ker) {left right : Img K} {dr dc : Int}
    (ht : Translated left right dr dc) {a b : Nat} (hb : BothInside hw left right dr dc a b)
    (hc : CleanWindow hw left right.noData a b) (hx : Textured hw left a b)
    {gmin gmax : Arr2 Int} (hg : gmin.get a b ≤ dc ∧ dc ≤ gmax.get a b) :
    Pandora.windowCost hw ker left (shiftDispRow right dr) gmin gmax a b ((dc : Int) : K) = .fin 1 := by
  obtain ⟨e, h⟩ := window_equal (ker := ker) ht hb hc hg
  rw [e]
  apply hk.one _ h
  have mem : ∀ x y, (a ≤ x + hw ∧ x ≤ a + hw ∧ b ≤ y + hw ∧ y ≤ b + hw) →
      ∃ p ∈ Pandora.windowPairs hw left (shiftDispRow right dr) a b (((b : Nat) : K) + ((dc : Int) : K)), p.1 = left.im x y := by
    rintro x y ⟨x1, x2, y1, y2⟩
    obtain ⟨⟨b1, -, b3, -⟩, -⟩ := hb
    unfold Pandora.windowPairs
    refine ⟨_, List.mem_flatMap.2 ⟨x + hw - a, List.mem_range.2 (by omega), List.mem_map.2 ⟨y + hw - b, List.mem_range.2 (by omega), rfl⟩⟩, ?_⟩
    show left.im _ _ = _
    rw [show a + (x + hw - a) - hw = x by omega, show b + (y + hw - b) - hw = y by omega]
  obtain ⟨x, y, x', y', h1, h2, hne⟩ := hx
  obtain ⟨p, hp, ep⟩ := mem x y h1
  obtain ⟨q, hq, eq⟩ := mem x' y' h2
  exact ⟨p, hp, q, hq, fun e => hne (by rw [← ep, ← eq, e])⟩

/-- C57 for a similarity (`zncc`): the score of the pixel is 1 as soon as its window is not constant. -/
theorem C57_translation_similarity {hw : Nat} {ker : List (F K × F K) → F K} (hk : Similarity ker) (hp : PairOk left right)
    (hs : 0 < cfg.subpix) (h1 : 1 ≤ cfg.stepRow) (hm : cfg.measure = .max)
    (hcst : (ConstantRange left.rowDisp left.img.h left.img.w ∧ ConstantRange left.colDisp left.img.h left.img.w) ∨
      (cfg.stepRow = 1 ∧ cfg.stepCol = 1))
    {dr dc : Int} (ht : Translated left.img right dr dc)
    (h : computeCostVolumes z (Pandora.windowCost hw ker) cfg roi left right margins = .ok cv)
    {invalid : F K} {out : DispOut K} (ho : computeDispMaps invalid cv = .ok out) {r c a b : Nat} (hpx : Pixel cv r c)
    (ha : cv.row.get r = left.img.row0 + a) (hb : cv.col.get c = left.img.col0 + b)
    (hin : BothInside hw left.img right dr dc a b) (hcl : CleanWindow hw left.img right.noData a b)
    (htx : Textured hw left.img a b)
    (hrr : left.rowDisp.lo.get a b ≤ dr ∧ dr ≤ left.rowDisp.hi.get a b)
    (hcr : left.colDisp.lo.get a b ≤ dc ∧ dc ≤ left.colDisp.hi.get a b) :
    out.score.get r c = .fin 1 ∧
    ((∀ i j, UserCol cv i → UserRow cv j → cv.data r c i j = .fin 1 → cv.dispCol.get i = dc ∧ cv.dispRow.get j = dr) →
      out.row.get r c = .fin ((dr : Int) : K) ∧ out.col.get r c = .fin ((dc : Int) : K)) :=
  translation_value hp hs h1 (fun l => ⟨fun _ => hk.noInf l, fun e => absurd (hm.symm.trans e) (by simp), fun hx => by
      rw [hm]
      show F.le _ (.fin 1) = true
      rw [F.le_iff_not_lt ((isNaN_false_iff _).2 hx) (by rfl), hk.le_one l]
      rfl⟩) hcst h ho hpx ha hb hin (fun hg => window_one hk ht hin hcl htx hg) hrr hcr

/-- The square root of the real numbers meets the contract. -/
theorem real_sqrt : SqrtContract Real.sqrt := fun x hx => ⟨Real.sqrt_nonneg x, Real.mul_self_sqrt hx⟩

/-- The pair of `C57_example` with real values. -/
noncomputable def exLeftReal : Left ℝ := ⟨⟨5, 3, 0, 0, fun r c => .fin (10 * r + c), none, .fin (-1), 0, 1⟩, exMMCol, exMMRow⟩
noncomputable def exRightReal : Img ℝ := ⟨5, 3, 0, 0, fun r c => .fin (10 * r + c - 10), none, .fin (-1), 0, 1⟩

/-- The score of the pixel (2, 1) with the correlation and the square root of the real numbers. -/
theorem C57_example_zncc (zm : Zoom ℝ) : ∃ cv out,
    computeCostVolumes zm (Pandora.windowCost 1 (zncc Real.sqrt)) ⟨1, 1, 1, .max⟩ none exLeftReal exRightReal none = .ok cv ∧
    computeDispMaps (.fin (-9999)) cv = .ok out ∧ out.score.get 2 1 = .fin 1 := by
  have hp : PairOk exLeftReal exRightReal := by
    have := exPair
    exact ⟨this.hpos, this.wpos, rfl, rfl, this.col, this.row⟩
  obtain ⟨cv, h⟩ := volumes_exist_step_one (z := zm) (pc := Pandora.windowCost 1 (zncc Real.sqrt)) (cfg := ⟨1, 1, 1, .max⟩) (roi := none)
    (margins := none) hp (by decide) rfl rfl
  obtain ⟨e1, e2, -, -, -, -, -, -⟩ := compute_char hp (by decide) (by decide) h
  obtain ⟨lr, lc⟩ := C13_axes_full_lattice hp (by decide) (by decide) h
  obtain ⟨i, hi, ei⟩ := int_index (by decide) lc (d := 0) (by decide) (by decide)
  obtain ⟨j, hj, ej⟩ := int_index (by decide) lr (d := 0) (by decide) (by decide)
  have ui := src_userCol hp (by decide) (by decide) h hi (by
    rw [ei]; exact ⟨Int.cast_le.2 (by decide), Int.cast_le.2 (by decide)⟩)
  have uj := src_userRow hp (by decide) (by decide) h hj (by
    rw [ej]; exact ⟨Int.cast_le.2 (by decide), Int.cast_le.2 (by decide)⟩)
  obtain ⟨out, ho, -⟩ := maps_exist (.fin (-9999)) cv ⟨i, ui⟩ ⟨j, uj⟩
  refine ⟨cv, out, h, ho, ?_⟩
  have r2 : cv.row.get 2 = exLeftReal.img.row0 + (2 : Nat) := by
    rw [e1, rowCoords_eq]
    exact (coords_step_one _ _ _).2 2
  have c1 : cv.col.get 1 = exLeftReal.img.col0 + (1 : Nat) := by
    rw [e2, colCoords_eq]
    exact (coords_step_one _ _ _).2 1
  have hpx : Pixel cv 2 1 := by
    constructor
    · rw [e1, rowCoords_eq, show ((⟨1, 1, 1, .max⟩ : Cfg).stepRow) = 1 from rfl, (coords_step_one _ _ _).1]; show 2 < 5; omega
    · rw [e2, colCoords_eq, show ((⟨1, 1, 1, .max⟩ : Cfg).stepCol) = 1 from rfl, (coords_step_one _ _ _).1]; show 1 < 3; omega
  have ht : Translated exLeftReal.img exRightReal 1 0 := by
    intro a b a' b' _ _ _ _ ha hb
    have hb' : b' = b := by omega
    have ha' : a' = a + 1 := by omega
    subst hb' ha'
    simp only [exLeftReal, exRightReal, F.fin.injEq]
    push_cast
    ring
  have hcl : CleanWindow 1 exLeftReal.img exRightReal.noData 2 1 := by
    refine ⟨fun x y _ _ _ _ => ⟨⟨_, rfl⟩, ?_, ?_⟩, ?_⟩
    · simp only [exLeftReal, exRightReal, ne_eq, F.fin.injEq]
      have h1 : (0 : ℝ) ≤ 10 * (x : ℝ) + (y : ℝ) := by positivity
      intro h2
      linarith
    · unfold Pandora.noDataAt
      simp only [exLeftReal]
    · simp [Pandora.invalidAt, exLeftReal]
  have htx : Textured 1 exLeftReal.img 2 1 :=
    ⟨2, 1, 2, 2, by decide, by decide, by simp [exLeftReal]⟩
  exact (C57_translation_similarity (zncc_similarity real_sqrt) hp (by decide) (by decide) rfl (Or.inr ⟨rfl, rfl⟩) ht h ho hpx r2 c1
    (by unfold BothInside; simp [exLeftReal, exRightReal]) hcl htx (by decide) (by decide)).1

end Verif.Props
