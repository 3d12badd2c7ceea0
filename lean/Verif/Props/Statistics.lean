import Verif.Lemmas.Statistics
import Verif.Spec.Statistics

/-!
# Property C55: the statistics describe the valid pixels
-/

set_option linter.unusedSectionVars false

namespace Verif.Props

open Verif Verif.Statistics Verif.Spec Verif.OpticalFlow

variable {K : Type} [Field K] [LinearOrder K] [IsStrictOrderedRing K]
variable {sqrt : F K → F K} {l : List (F K)} {invalid : Option (F K)}

/-- The data kept by `compute_statistics`. -/
def kept (l : List (F K)) (invalid : Option (F K)) : List (F K) :=
  match invalid with
  | none => l
  | some v => if v.isNaN then l else isNotIn l v

open Classical in
theorem known_kept (l : List (F K)) (invalid : Option (F K)) :
    known (kept l invalid) = l.filter fun v => decide (ValidFor invalid v) := by
  unfold kept known
  rcases invalid with _ | v
  · apply List.filter_congr
    intro x _
    rw [Bool.eq_iff_iff]
    simp [ValidFor, ← isNaN_iff]
  · simp only
    split_ifs with hv
    · apply List.filter_congr
      intro x _
      rw [Bool.eq_iff_iff]
      have : v = .nan := (isNaN_iff v).1 hv
      subst this
      simp [ValidFor, ← isNaN_iff]
    · unfold isNotIn
      rw [List.filter_filter]
      apply List.filter_congr
      intro x _
      rw [Bool.eq_iff_iff]
      simp only [ValidFor, Bool.and_eq_true, Bool.not_eq_true', decide_eq_true_eq, ne_eq, Option.some.injEq]
      rw [Bool.eq_false_iff, Bool.eq_false_iff, ne_eq, ne_eq, isNaN_iff, F.eq_iff]
      constructor
      · rintro ⟨h1, h2⟩
        refine ⟨h1, fun h => h2 ⟨h, ?_⟩⟩
        rw [Bool.eq_false_iff, ne_eq, isNaN_iff]; exact h1
      · rintro ⟨h1, h2⟩
        exact ⟨h1, fun h => h2 h.1⟩

theorem stats_mean : (computeStatistics sqrt l invalid).mean = nanMean (kept l invalid) := by
  unfold computeStatistics kept
  rcases invalid with _ | v
  · rfl
  · simp only; split_ifs <;> rfl

theorem stats_std : (computeStatistics sqrt l invalid).std = nanStd sqrt (kept l invalid) := by
  unfold computeStatistics kept
  rcases invalid with _ | v
  · rfl
  · simp only; split_ifs <;> rfl

theorem stats_quantiles : (computeStatistics sqrt l invalid).quantiles = [2, 5, 10, 15, 18].map (nanQuantile (kept l invalid)) := by
  have h0 : ∀ p, nanQuantile ([] : List (F K)) p = .nan := fun p => by simp [nanQuantile, known]
  unfold computeStatistics kept
  rcases invalid with _ | v
  · simp only
    split_ifs with h
    · rfl
    · have : l = [] := List.length_eq_zero_iff.1 (by simpa using h)
      subst this
      simp [h0]
  · by_cases hv : v.isNaN
    · simp only [if_pos hv]
      split_ifs with h
      · rfl
      · have : l = [] := List.length_eq_zero_iff.1 (by simpa using h)
        subst this
        simp [h0]
    · simp only [if_neg hv]
      split_ifs with h
      · rfl
      · have : isNotIn l v = [] := List.length_eq_zero_iff.1 (by simpa using h)
        rw [this]
        simp [h0]

theorem known_perm_fin {xs : List K} (hx : ValidValues invalid l xs) : (known (kept l invalid)).Perm (xs.map F.fin) := by
  rw [known_kept]
  exact hx

theorem known_map_fin (xs : List K) : known (xs.map F.fin) = xs.map F.fin := by
  unfold known
  rw [List.filter_eq_self]
  intro v hv
  obtain ⟨x, _, rfl⟩ := List.mem_map.1 hv
  rfl

theorem sum_nonneg' : ∀ {l : List K}, (∀ x ∈ l, 0 ≤ x) → 0 ≤ l.sum
  | [], _ => by simp
  | x :: l, h => by
    rw [List.sum_cons]
    exact add_nonneg (h x (by simp)) (sum_nonneg' fun y hy => h y (List.mem_cons_of_mem _ hy))

theorem known_known (l : List (F K)) : known (known l) = known l := by simp [known]

/-- C55: the mean is the mean of the valid pixels. -/
theorem C55_mean {xs : List K} (hx : ValidValues invalid l xs) (hn : xs ≠ []) :
    ∃ m, (computeStatistics sqrt l invalid).mean = .fin m ∧ IsMean xs m := by
  have hp := known_perm_fin hx
  have h0 : (xs.length : K) ≠ 0 := Nat.cast_ne_zero.2 (by simpa using hn)
  rw [stats_mean]
  unfold nanMean fsum
  rw [foldr_perm hp, foldr_fin, hp.length_eq, List.length_map]
  unfold over
  rw [if_neg (by simpa using hn)]
  refine ⟨_, rfl, ?_⟩
  unfold IsMean
  field_simp

/-- C55: the deviation is the square root of the variance of the valid pixels. -/
theorem C55_std {xs : List K} (hx : ValidValues invalid l xs) (hn : xs ≠ []) :
    ∃ m v, IsMean xs m ∧ IsVariance xs m v ∧ 0 ≤ v ∧ (computeStatistics sqrt l invalid).std = sqrt (.fin v) := by
  obtain ⟨m, hm, hmean⟩ := C55_mean (sqrt := sqrt) hx hn
  rw [stats_mean] at hm
  have hp := known_perm_fin hx
  have hlen : 0 < xs.length := List.length_pos_iff.2 hn
  have h0 : (0 : K) < (xs.length : K) := Nat.cast_pos.2 hlen
  refine ⟨m, (xs.map fun x => (x - m) * (x - m)).sum * (1 / (xs.length : K)), hmean, ?_, ?_, ?_⟩
  · unfold IsVariance
    field_simp
  · apply mul_nonneg
    · apply sum_nonneg'
      intro y hy
      obtain ⟨x, _, rfl⟩ := List.mem_map.1 hy
      exact mul_self_nonneg _
    · positivity
  · rw [stats_std]
    unfold nanStd
    rw [hm, hp.length_eq, List.length_map, if_neg (by omega)]
    simp only
    rw [foldr_perm (hp.map _)]
    have : (xs.map F.fin).map (fun v => F.mul (fsub v (.fin m)) (fsub v (.fin m))) =
        (xs.map fun x => (x - m) * (x - m)).map F.fin := by
      rw [List.map_map, List.map_map]
      apply List.map_congr_left
      intro x _
      simp [fsub, F.neg, F.add, F.mul, sub_eq_add_neg]
    rw [this, foldr_fin]
    unfold over
    rw [if_neg (by omega)]
    rfl

/-- The value of a quantile in terms of the sorted values. -/
theorem quantile_value {xs : List K} (hx : ValidValues invalid l xs) (hn : xs ≠ []) (p : Nat) (hp : p ≤ 20) :
    let s := xs.mergeSort fun a b => decide (a ≤ b)
    let k := p * (xs.length - 1) / 20
    let r := p * (xs.length - 1) % 20
    ∃ a b, s[k]? = some a ∧ s[min (k + 1) (xs.length - 1)]? = some b ∧
      nanQuantile (kept l invalid) p = .fin (a + (b - a) * ((r : K) / 20)) := by
  intro s k r
  have hlen : 0 < xs.length := List.length_pos_iff.2 hn
  have hs : s.length = xs.length := List.length_mergeSort _
  have hk : k < s.length := by
    rw [hs]
    have : p * (xs.length - 1) ≤ 20 * (xs.length - 1) := Nat.mul_le_mul_right _ hp
    have : k ≤ xs.length - 1 := by
      show p * (xs.length - 1) / 20 ≤ _
      omega
    omega
  have hk' : min (k + 1) (xs.length - 1) < s.length := by omega
  refine ⟨s[k], s[min (k + 1) (xs.length - 1)], List.getElem?_eq_getElem hk, List.getElem?_eq_getElem hk', ?_⟩
  have hsort : (known (kept l invalid)).mergeSort F.le = s.map F.fin := by
    have := sort_perm (known_perm_fin hx)
    rw [known_known, known_map_fin] at this
    rw [this, sort_fin]
  unfold nanQuantile
  rw [hsort]
  simp only [List.length_map, hs]
  rw [if_neg (by omega)]
  have g1 : (s.map F.fin).getD k .nan = .fin s[k] := by
    rw [List.getD_eq_getElem?_getD, List.getElem?_map, List.getElem?_eq_getElem hk]; rfl
  have g2 : (s.map F.fin).getD (min (k + 1) (xs.length - 1)) .nan = .fin s[min (k + 1) (xs.length - 1)] := by
    rw [List.getD_eq_getElem?_getD, List.getElem?_map, List.getElem?_eq_getElem hk']; rfl
  show lerp ((s.map F.fin).getD k .nan) ((s.map F.fin).getD (min (k + 1) (xs.length - 1)) .nan) ((r : K) / 20) = _
  rw [g1, g2]
  unfold lerp
  split_ifs
  · simp [fsub, F.neg, F.add, F.mul, sub_eq_add_neg]
  · simp only [fsub, F.neg, F.add, F.mul, F.fin.injEq]
    ring

/-- C55: each quantile is the quantile of the valid pixels. -/
theorem C55_quantiles {xs : List K} (hx : ValidValues invalid l xs) (hn : xs ≠ []) :
    ∃ q : Nat → K, (computeStatistics sqrt l invalid).quantiles = [.fin (q 2), .fin (q 5), .fin (q 10), .fin (q 15), .fin (q 18)] ∧
      ∀ p ∈ [2, 5, 10, 15, 18], IsQuantile xs p (q p) := by
  have hlen : 0 < xs.length := List.length_pos_iff.2 hn
  choose! a b ha hb hq using fun (p : Nat) (hp : p ≤ 20) => quantile_value hx hn p hp
  refine ⟨fun p => a p + (b p - a p) * (((p * (xs.length - 1) % 20 : Nat) : K) / 20), ?_, ?_⟩
  · rw [stats_quantiles]
    simp only [List.map_cons, List.map_nil]
    rw [hq 2 (by omega), hq 5 (by omega), hq 10 (by omega), hq 15 (by omega), hq 18 (by omega)]
  · intro p hp s hs hsort
    have hp20 : p ≤ 20 := by
      simp at hp
      omega
    have heq : s = xs.mergeSort fun a b => decide (a ≤ b) := by
      refine List.Perm.eq_of_pairwise (le := fun a b : K => a ≤ b) ?_ hsort (sorted_le xs) ?_
      · intro a b _ _ h1 h2
        exact le_antisymm h1 h2
      · exact hs.trans (List.mergeSort_perm _ _).symm
    have ha' := ha p hp20
    have hb' := hb p hp20
    rw [← heq] at ha' hb'
    refine ⟨p * (xs.length - 1) / 20, p * (xs.length - 1) % 20, a p, b p, Nat.div_add_mod _ _, Nat.mod_lt _ (by omega), ha', ?_, ?_⟩
    · by_cases hk : p * (xs.length - 1) / 20 + 1 ≤ xs.length - 1
      · rw [min_eq_left hk] at hb'
        exact Or.inl hb'
      · right
        have hm : p * (xs.length - 1) ≤ 20 * (xs.length - 1) := Nat.mul_le_mul_right _ hp20
        have e1 : p * (xs.length - 1) / 20 = xs.length - 1 := by omega
        refine ⟨by omega, ?_⟩
        rw [min_eq_right (by omega)] at hb'
        rw [e1] at ha'
        rw [ha'] at hb'
        exact (Option.some.inj hb').symm
    · field_simp
      ring

/-- C55: the quantiles are ordered and between the lowest and the highest valid pixels. -/
theorem C55_quantiles_ordered {xs : List K} (hx : ValidValues invalid l xs) (hn : xs ≠ []) (lo hi : K)
    (hlo : ∀ x ∈ xs, lo ≤ x) (hhi : ∀ x ∈ xs, x ≤ hi) :
    ∃ a b c d f, (computeStatistics sqrt l invalid).quantiles = [.fin a, .fin b, .fin c, .fin d, .fin f] ∧
      lo ≤ a ∧ a ≤ b ∧ b ≤ c ∧ c ≤ d ∧ d ≤ f ∧ f ≤ hi := by
  have hlen : 0 < xs.length := List.length_pos_iff.2 hn
  set s := xs.mergeSort fun a b => decide (a ≤ b) with hs
  have hsl : s.length = xs.length := List.length_mergeSort _
  have hmono : ∀ (i j : Nat) (u v : K), i ≤ j → s[i]? = some u → s[j]? = some v → u ≤ v := by
    intro i j u v hij hu hv
    obtain ⟨h1, rfl⟩ := List.getElem?_eq_some_iff.1 hu
    obtain ⟨h2, rfl⟩ := List.getElem?_eq_some_iff.1 hv
    rcases Nat.lt_or_eq_of_le hij with h | h
    · exact (List.pairwise_iff_getElem.1 (sorted_le xs)) i j h1 h2 h
    · subst h; exact le_refl _
  have hmem : ∀ (i : Nat) (u : K), s[i]? = some u → u ∈ xs := fun i u hu =>
    (List.mergeSort_perm xs _).mem_iff.1 (List.mem_of_getElem? hu)
  choose! a b ha hb hq using fun (p : Nat) (hp : p ≤ 20) => quantile_value hx hn p hp
  have hr : ∀ p, (0 : K) ≤ ((p * (xs.length - 1) % 20 : Nat) : K) / 20 ∧ ((p * (xs.length - 1) % 20 : Nat) : K) / 20 ≤ 1 := by
    intro p
    refine ⟨by positivity, ?_⟩
    rw [div_le_one (by norm_num)]
    have : p * (xs.length - 1) % 20 ≤ 20 := (Nat.mod_lt _ (by omega)).le
    exact_mod_cast this
  have hab : ∀ p ≤ 20, a p ≤ b p := fun p hp => by
    refine hmono _ _ _ _ ?_ (ha p hp) (hb p hp)
    have : p * (xs.length - 1) ≤ 20 * (xs.length - 1) := Nat.mul_le_mul_right _ hp
    omega
  have hlow : ∀ p ≤ 20, a p ≤ a p + (b p - a p) * (((p * (xs.length - 1) % 20 : Nat) : K) / 20) := fun p hp => by
    have := mul_nonneg (sub_nonneg.2 (hab p hp)) (hr p).1
    linarith
  have hup : ∀ p ≤ 20, a p + (b p - a p) * (((p * (xs.length - 1) % 20 : Nat) : K) / 20) ≤ b p := fun p hp => by
    have := mul_le_mul_of_nonneg_left (hr p).2 (sub_nonneg.2 (hab p hp))
    linarith
  have hstep : ∀ p q, p ≤ q → q ≤ 20 → a p + (b p - a p) * (((p * (xs.length - 1) % 20 : Nat) : K) / 20) ≤
      a q + (b q - a q) * (((q * (xs.length - 1) % 20 : Nat) : K) / 20) := by
    intro p q hpq hq20
    have hm : p * (xs.length - 1) ≤ q * (xs.length - 1) := Nat.mul_le_mul_right _ hpq
    have hd : p * (xs.length - 1) / 20 ≤ q * (xs.length - 1) / 20 := Nat.div_le_div_right hm
    rcases Nat.lt_or_eq_of_le hd with h | h
    · refine (hup p (by omega)).trans (le_trans ?_ (hlow q hq20))
      exact hmono _ _ _ _ (by omega) (hb p (by omega)) (ha q hq20)
    · have h1 := ha p (by omega)
      have h2 := hb p (by omega)
      have h3 := ha q hq20
      have h4 := hb q hq20
      rw [h] at h1 h2
      rw [h1] at h3
      rw [h2] at h4
      have e1 := Option.some.inj h3
      have e2 := Option.some.inj h4
      rw [← e1, ← e2]
      have hmod : p * (xs.length - 1) % 20 ≤ q * (xs.length - 1) % 20 := by omega
      have : (((p * (xs.length - 1) % 20 : Nat) : K) / 20) ≤ (((q * (xs.length - 1) % 20 : Nat) : K) / 20) :=
        div_le_div_of_nonneg_right (Nat.cast_le.2 hmod) (by norm_num)
      have := mul_le_mul_of_nonneg_left this (sub_nonneg.2 (hab p (by omega)))
      linarith
  refine ⟨_, _, _, _, _, ?_, ?_, hstep 2 5 (by omega) (by omega), hstep 5 10 (by omega) (by omega), hstep 10 15 (by omega) (by omega),
    hstep 15 18 (by omega) (by omega), ?_⟩
  · rw [stats_quantiles]
    simp only [List.map_cons, List.map_nil]
    rw [hq 2 (by omega), hq 5 (by omega), hq 10 (by omega), hq 15 (by omega), hq 18 (by omega)]
  · exact (hlo _ (hmem _ _ (ha 2 (by omega)))).trans (hlow 2 (by omega))
  · exact (hup 18 (by omega)).trans (hhi _ (hmem _ _ (hb 18 (by omega))))

/-- C55: nothing valid gives NaN everywhere. -/
theorem C55_nothing_valid (h : ∀ v ∈ l, ¬ ValidFor invalid v) : (computeStatistics sqrt l invalid).mean = .nan ∧
    (computeStatistics sqrt l invalid).std = .nan ∧ (computeStatistics sqrt l invalid).quantiles = [.nan, .nan, .nan, .nan, .nan] := by
  have : known (kept l invalid) = [] := by
    rw [known_kept, List.filter_eq_nil_iff]
    intro v hv
    simpa using h v hv
  refine ⟨?_, ?_, ?_⟩
  · rw [stats_mean]; simp [nanMean, this, over]
  · rw [stats_std]; simp [nanStd, this]
  · rw [stats_quantiles]; simp [nanQuantile, this]

/-- C55: the result does not depend on the order of the pixels. -/
theorem C55_order {l' : List (F K)} (h : l.Perm l') : computeStatistics sqrt l invalid = computeStatistics sqrt l' invalid := by
  have hk : ∀ v, (isNotIn l v).Perm (isNotIn l' v) := fun v => h.filter _
  have hkept : (kept l invalid).Perm (kept l' invalid) := by
    unfold kept
    rcases invalid with _ | v
    · exact h
    · simp only
      split_ifs
      · exact h
      · exact hk v
  have hr : (computeStatistics sqrt l invalid).ratio = (computeStatistics sqrt l' invalid).ratio := by
    unfold computeStatistics
    rcases invalid with _ | v
    · simp only
      rw [(known_perm h).length_eq, h.length_eq]
    · by_cases hv : v.isNaN
      · simp only [if_pos hv]
        rw [(known_perm h).length_eq, h.length_eq]
      · simp only [if_neg hv]
        rw [(hk v).length_eq, h.length_eq]
  have e : ∀ a b : Stats K, a.mean = b.mean → a.std = b.std → a.quantiles = b.quantiles → a.ratio = b.ratio → a = b := by
    rintro ⟨_, _, _, _⟩ ⟨_, _, _, _⟩ rfl rfl rfl rfl
    rfl
  apply e _ _ _ _ _ hr
  · rw [stats_mean, stats_mean, nanMean_perm hkept]
  · rw [stats_std, stats_std, nanStd_perm sqrt hkept]
  · rw [stats_quantiles, stats_quantiles, funext (nanQuantile_perm hkept)]

/-- The ratio in all the cases. -/
theorem stats_ratio (hn : l ≠ []) : ∃ n ≤ l.length, (computeStatistics sqrt l invalid).ratio = .fin ((n : K) / (l.length : K)) ∧
    n = match invalid with
      | none => (known l).length
      | some v => if v.isNaN then (known l).length else (isNotIn l v).length := by
  have h0 : l.length ≠ 0 := by simpa using hn
  have ho : ∀ n : Nat, over (.fin (n : K)) l.length = .fin ((n : K) / (l.length : K)) := by
    intro n
    unfold over
    rw [if_neg h0]
    simp [F.mul, div_eq_mul_inv]
  unfold computeStatistics
  rcases invalid with _ | v
  · exact ⟨_, List.length_filter_le _ _, ho _, rfl⟩
  · by_cases hv : v.isNaN
    · simp only [if_pos hv]
      exact ⟨_, List.length_filter_le _ _, ho _, rfl⟩
    · simp only [if_neg hv]
      exact ⟨_, List.length_filter_le _ _, ho _, rfl⟩

/-- C55: the ratio is between 0 and 1. -/
theorem C55_ratio_range (hn : l ≠ []) : ∃ x, (computeStatistics sqrt l invalid).ratio = .fin x ∧ 0 ≤ x ∧ x ≤ 1 := by
  obtain ⟨n, hle, h, -⟩ := stats_ratio (sqrt := sqrt) (invalid := invalid) hn
  have h0 : (0 : K) < (l.length : K) := Nat.cast_pos.2 (List.length_pos_iff.2 hn)
  refine ⟨_, h, by positivity, ?_⟩
  rw [div_le_one h0]
  exact Nat.cast_le.2 hle

open Classical in
/-- C55 (partial): the ratio is the one of the valid pixels when the invalid value is NaN (or absent) or when the map has no NaN. -/
theorem C55_ratio_partial (hn : l ≠ []) (h : invalid = none ∨ invalid = some .nan ∨ F.nan ∉ l) :
    (computeStatistics sqrt l invalid).ratio =
      .fin (((l.filter fun v => decide (ValidFor invalid v)).length : K) / (l.length : K)) := by
  obtain ⟨n, -, hr, hn'⟩ := stats_ratio (sqrt := sqrt) (invalid := invalid) hn
  have : n = (l.filter fun v => decide (ValidFor invalid v)).length := by
    rw [← known_kept, hn']
    unfold kept
    rcases invalid with _ | v
    · rfl
    · simp only
      split_ifs with hv
      · rfl
      · have hl : F.nan ∉ l := by
          rcases h with h | h | h
          · simp at h
          · simp only [Option.some.injEq] at h
            subst h
            exact absurd rfl hv
          · exact h
        congr 1
        unfold known
        symm
        rw [List.filter_eq_self]
        intro x hx
        have hxl : x ∈ l := (List.mem_filter.1 hx).1
        simp only [Bool.not_eq_true']
        rw [Bool.eq_false_iff, ne_eq, isNaN_iff]
        rintro rfl
        exact hl hxl
  rw [hr, this]

/-- C55 fails with NaN in a map whose invalid value is a number: two pixels out of three are counted, the mean is the one of a single
pixel. -/
theorem C55_nan_counted : (computeStatistics (K := ℚ) id [.fin 1, .nan, .fin (-9999)] (some (.fin (-9999)))).ratio = .fin (2 / 3) ∧
    (computeStatistics (K := ℚ) id [.fin 1, .nan, .fin (-9999)] (some (.fin (-9999)))).mean = .fin 1 := by decide +kernel

/-- Non-vacuity of C55: a map with one invalid pixel out of five, its valid values and its mean. -/
theorem exValid : ValidValues (K := ℚ) (some (.fin (-9999))) [.fin 4, .fin 1, .fin (-9999), .fin 2, .fin 3] [4, 1, 2, 3] := by
  unfold ValidValues
  have hn : ∀ x : ℚ, (F.fin x = F.nan) = False := fun x => by simp
  simp only [ValidFor, List.filter_cons]
  norm_num [hn]

example : ∃ m, (computeStatistics (K := ℚ) id [.fin 4, .fin 1, .fin (-9999), .fin 2, .fin 3] (some (.fin (-9999)))).mean = .fin m ∧
    IsMean [4, 1, 2, 3] m := C55_mean exValid (by simp)

example : (computeStatistics (K := ℚ) id [.fin 4, .fin 1, .fin (-9999), .fin 2, .fin 3] (some (.fin (-9999)))).mean = .fin (5 / 2) := by
  decide +kernel

end Verif.Props
