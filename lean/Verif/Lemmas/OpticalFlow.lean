import Verif.Spec.OpticalFlow
import Verif.Py.FloatLemmas
import Mathlib.Tactic.Ring
import Mathlib.Tactic.Linarith
import Mathlib.Tactic.LinearCombination

/-! # Lemmas on the model of the optical flow -/

set_option linter.unusedSectionVars false

namespace Verif.OpticalFlow

open Verif Verif.ImgTools Verif.Spec

theorem countP_range (p : Nat → Bool) (n k : Nat) (hk : k ≤ n) (h : ∀ i < n, p i = decide (i < k)) :
    (List.range n).countP p = k := by
  induction n generalizing k with
  | zero => simp at hk; simp [hk]
  | succ n ih =>
    rw [List.range_succ, List.countP_append]
    rcases Nat.lt_or_ge k (n + 1) with hlt | hge
    · have hk' : k ≤ n := by omega
      rw [ih k hk' (fun i hi => h i (by omega))]
      have := h n (by omega)
      have h2 : ¬ n < k := by omega
      simp [this, h2]
    · have hk' : k = n + 1 := by omega
      subst hk'
      rw [ih n le_rfl]
      · have := h n (by omega)
        simp [this]
      · intro i hi
        rw [h i (by omega)]
        have h1 : i < n + 1 := by omega
        simp [h1, hi]

/-- Number of points lost at each end of an axis. -/
def lost (offset step : Nat) : Nat := (offset + step - 1) / step

theorem lost_le_iff {offset step : Nat} (hs : 1 ≤ step) (k : Nat) : lost offset step ≤ k ↔ offset ≤ k * step := by
  unfold lost
  constructor
  · intro h
    have h1 := Nat.lt_div_mul_add (a := offset + step - 1) (b := step) hs
    have h2 : (offset + step - 1) / step * step ≤ k * step := Nat.mul_le_mul_right _ h
    omega
  · intro h
    apply Nat.le_of_lt_succ
    rw [Nat.div_lt_iff_lt_mul hs]
    rw [Nat.succ_mul]
    omega

section axis
variable {a : Arr1 Int} {start : Int} {step : Nat}

theorem searchLeft_eq (h : RegularAxis a start step) (v : Int) (k : Nat) (hk : k ≤ a.n)
    (hv : ∀ i < a.n, (start + (i : Int) * step < v ↔ i < k)) : searchLeft a v = k := by
  unfold searchLeft
  apply countP_range _ _ _ hk
  intro i hi
  rw [h.get i hi, decide_eq_decide]
  exact hv i hi

theorem searchRight_eq (h : RegularAxis a start step) (v : Int) (k : Nat) (hk : k ≤ a.n)
    (hv : ∀ i < a.n, (start + (i : Int) * step ≤ v ↔ i < k)) : searchRight a v = k := by
  unfold searchRight
  apply countP_range _ _ _ hk
  intro i hi
  rw [h.get i hi, decide_eq_decide]
  exact hv i hi

theorem searchLeft_first (h : RegularAxis a start step) (offset : Nat) (hb : lost offset step ≤ a.n) :
    searchLeft a (start + offset) = lost offset step := by
  apply searchLeft_eq h _ _ hb
  intro i hi
  have := lost_le_iff (offset := offset) h.pos i
  constructor
  · intro hlt
    by_contra hc
    have h2 := this.1 (by omega)
    have : (offset : Int) ≤ (i : Int) * step := by exact_mod_cast h2
    omega
  · intro hlt
    have h2 : ¬ offset ≤ i * step := fun hh => by have := this.2 hh; omega
    have : ((i * step : Nat) : Int) < offset := by exact_mod_cast Nat.lt_of_not_le h2
    push_cast at this
    omega

theorem searchRight_last (h : RegularAxis a start step) (offset : Nat) (hn : 0 < a.n) :
    searchRight a (start + ((a.n - 1 : Nat) : Int) * step - offset) = a.n - lost offset step := by
  apply searchRight_eq h _ _ (by omega)
  intro i hi
  obtain ⟨m, hm⟩ : ∃ m, a.n - 1 = i + m := ⟨a.n - 1 - i, by omega⟩
  have := lost_le_iff (offset := offset) h.pos m
  rw [hm]
  have e : (((i + m : Nat) : Int)) * step = (i : Int) * step + (m : Int) * step := by push_cast; ring
  rw [e]
  constructor
  · intro hle
    have : offset ≤ m * step := by
      have : (offset : Int) ≤ ((m * step : Nat) : Int) := by push_cast; omega
      exact_mod_cast this
    have := (lost_le_iff (offset := offset) h.pos m).2 this
    omega
  · intro hlt
    have h2 := this.1 (by omega)
    have : (offset : Int) ≤ ((m * step : Nat) : Int) := by exact_mod_cast h2
    push_cast at this
    omega

theorem axis_lt_iff (hs : 1 ≤ step) (i j : Nat) : start + (i : Int) * step < start + (j : Int) * step ↔ i < j := by
  have : (0 : Int) < step := by exact_mod_cast hs
  constructor
  · intro h
    have h1 : (i : Int) * step < (j : Int) * step := by omega
    have := lt_of_mul_lt_mul_right h1 (by omega)
    exact_mod_cast this
  · intro h
    have : (i : Int) < j := by exact_mod_cast h
    have : (i : Int) * step < (j : Int) * step := by
      apply mul_lt_mul_of_pos_right this; assumption
    omega

theorem axis_le_iff (hs : 1 ≤ step) (i j : Nat) : start + (i : Int) * step ≤ start + (j : Int) * step ↔ i ≤ j := by
  have := axis_lt_iff (start := start) hs j i
  constructor
  · intro h; by_contra hc; have := this.2 (by omega); omega
  · intro h; by_contra hc; have := this.1 (by omega); omega

theorem searchLeft_get (h : RegularAxis a start step) (k : Nat) (hk : k < a.n) : searchLeft a (a.get k) = k := by
  apply searchLeft_eq h _ _ (by omega)
  intro i _
  rw [h.get k hk]
  exact axis_lt_iff h.pos i k

theorem searchRight_get (h : RegularAxis a start step) (k : Nat) (hk : k < a.n) : searchRight a (a.get k) = k + 1 := by
  apply searchRight_eq h _ _ (by omega)
  intro i _
  rw [h.get k hk, axis_le_iff h.pos i k]
  omega

/-- The extrema of an axis with at least one inner point. -/
theorem extrema_ok (h : RegularAxis a start step) (offset : Nat) (hn : 2 * lost offset step < a.n) :
    extrema a offset = .ok (a.get (lost offset step), a.get (a.n - 1 - lost offset step)) := by
  have h0 : a.n ≠ 0 := by omega
  have e0 : a.get 0 = start := by rw [h.get 0 (by omega)]; simp
  have e1 := h.get (a.n - 1) (by omega)
  unfold extrema nearestUp nearestDown
  rw [if_neg h0, e0, e1, searchLeft_first h offset (by omega), searchRight_last h offset (by omega),
    if_pos (by omega), if_neg h0, if_neg (by omega)]
  have : a.n - lost offset step - 1 = a.n - 1 - lost offset step := by omega
  rw [this]
  rfl

theorem labelSlice_ok (h : RegularAxis a start step) (b : Nat) (hn : 2 * b < a.n) :
    labelSlice a (a.get b) (a.get (a.n - 1 - b)) = (b, a.n - 2 * b) := by
  unfold labelSlice
  rw [searchLeft_get h _ (by omega), searchRight_get h _ (by omega)]
  congr 1
  omega

theorem nbValid_ok (h : RegularAxis a start step) (b : Nat) (hn : 2 * b < a.n) :
    nbValid (a.get b, a.get (a.n - 1 - b)) step = a.n - 2 * b := by
  unfold nbValid
  simp only
  rw [h.get _ (by omega : b < a.n), h.get _ (by omega : a.n - 1 - b < a.n)]
  obtain ⟨m, hm⟩ : ∃ m, a.n - 1 - b = b + m := ⟨a.n - 1 - 2 * b, by omega⟩
  rw [hm]
  have e : start + ((b + m : Nat) : Int) * step - (start + (b : Int) * step) = (m : Int) * step := by push_cast; ring
  have : (0 : Int) < step := by exact_mod_cast h.pos
  rw [e, Int.mul_ediv_cancel _ (by omega)]
  omega

/-- Inner points in terms of indices. -/
theorem innerIdx_iff (h : RegularAxis a start step) (offset k : Nat) :
    InnerIdx a offset k ↔ k < a.n ∧ lost offset step ≤ k ∧ k + lost offset step < a.n := by
  unfold InnerIdx
  constructor
  · rintro ⟨hk, h1, h2⟩
    rw [h.get 0 (by omega), h.get k hk] at h1
    rw [h.get (a.n - 1) (by omega), h.get k hk] at h2
    obtain ⟨m, hm⟩ : ∃ m, a.n - 1 = k + m := ⟨a.n - 1 - k, by omega⟩
    rw [hm] at h2
    have e : ((k + m : Nat) : Int) * step = (k : Int) * step + (m : Int) * step := by push_cast; ring
    rw [e] at h2
    have a1 : offset ≤ k * step := by
      have : (offset : Int) ≤ ((k * step : Nat) : Int) := by push_cast; simp at h1; omega
      exact_mod_cast this
    have a2 : offset ≤ m * step := by
      have : (offset : Int) ≤ ((m * step : Nat) : Int) := by push_cast; omega
      exact_mod_cast this
    have b1 := (lost_le_iff h.pos k).2 a1
    have b2 := (lost_le_iff h.pos m).2 a2
    omega
  · rintro ⟨hk, h1, h2⟩
    refine ⟨hk, ?_, ?_⟩
    · rw [h.get 0 (by omega), h.get k hk]
      have := (lost_le_iff (offset := offset) h.pos k).1 h1
      have : (offset : Int) ≤ ((k * step : Nat) : Int) := by exact_mod_cast this
      push_cast at this
      simp
      omega
    · rw [h.get (a.n - 1) (by omega), h.get k hk]
      obtain ⟨m, hm⟩ : ∃ m, a.n - 1 = k + m := ⟨a.n - 1 - k, by omega⟩
      rw [hm]
      have e : ((k + m : Nat) : Int) * step = (k : Int) * step + (m : Int) * step := by push_cast; ring
      rw [e]
      have := (lost_le_iff (offset := offset) h.pos m).1 (by omega)
      have : (offset : Int) ≤ ((m * step : Nat) : Int) := by exact_mod_cast this
      push_cast at this
      omega

end axis

theorem imgAxis_regular (c0 : Int) (n : Nat) : RegularAxis (imgAxis c0 n) c0 1 :=
  ⟨le_rfl, fun k _ => by simp [imgAxis]⟩

theorem imgAxis_left (c0 : Int) (n : Nat) (v : Int) : searchLeft (imgAxis c0 n) v = min n (v - c0).toNat := by
  apply searchLeft_eq (imgAxis_regular c0 n) _ _ (by simp [imgAxis])
  intro i hi
  simp only [imgAxis] at hi
  push_cast
  omega

theorem imgAxis_right (c0 : Int) (n : Nat) (v : Int) : searchRight (imgAxis c0 n) v = min n (v - c0 + 1).toNat := by
  apply searchRight_eq (imgAxis_regular c0 n) _ _ (by simp [imgAxis])
  intro i hi
  simp only [imgAxis] at hi
  push_cast
  omega

section windows
variable {K : Type}

theorem patchAt_eq (img : Img K) (half : Nat) (r c : Int) :
    patchAt img (2 * half + 1) r c = rightWindow img half r c := by
  have e : (2 * half + 1) / 2 = half := by omega
  unfold patchAt rightWindow labelSlice
  simp only [e, imgAxis_left, imgAxis_right]
  by_cases hf : WindowFits img half r c
  · have hf' := hf
    unfold WindowFits at hf'
    rw [if_pos hf, if_pos (by omega)]
    unfold windowOf
    congr 1
    funext i j
    congr 1 <;> omega
  · rw [if_neg hf, if_neg]
    intro hc
    apply hf
    unfold WindowFits
    omega

theorem lastIdx_eq (get : Nat → Int) (key : Int) (n k : Nat) (hk : k < n) (hg : get k = key)
    (hinj : ∀ i < n, get i = key → i = k) : lastIdx get key n = some k := by
  induction n with
  | zero => omega
  | succ n ih =>
    unfold lastIdx
    by_cases h : get n = key
    · rw [if_pos h, hinj n (by omega) h]
    · rw [if_neg h]
      apply ih
      · rcases Nat.lt_or_ge k n with h1 | h1
        · exact h1
        · have : k = n := by omega
          subst this
          exact absurd hg h
      · intro i hi
        exact hinj i (by omega)

theorem imgAxis_slice (c0 : Int) (n half : Nat) (h1 : 1 ≤ half) (hn : 2 * half + 1 ≤ n) :
    (imgAxis c0 n).slice half (-(half : Int)) = ⟨n - 2 * half, fun i => c0 + ((half + i : Nat) : Int)⟩ := by
  unfold Arr1.slice sliceLen sliceStart clampIdx imgAxis
  simp only
  have e1 : ¬ (half : Int) < 0 := by omega
  have e2 : -(half : Int) < 0 := by omega
  simp only [e1, e2, if_true, if_false]
  congr 1
  · omega
  · funext i
    have : min (half : Int).toNat n = half := by omega
    rw [this]

/-- The key of the dictionary identifies the pixel. -/
theorem key_inj {w : Nat} {r r' c c' c0 : Int} (h : r * w + c = r' * w + c') (h1 : c0 ≤ c) (h2 : c < c0 + w)
    (h3 : c0 ≤ c') (h4 : c' < c0 + w) : r = r' ∧ c = c' := by
  have hd : (r - r') * w = c' - c := by linear_combination h
  have hlt : |(r - r') * (w : Int)| < w := by
    rw [hd, abs_lt]; omega
  have hw : (0 : Int) < w := by omega
  have : r - r' = 0 := by
    by_contra hne
    have : (1 : Int) ≤ |r - r'| := Int.one_le_abs hne
    rw [abs_mul, abs_of_pos hw] at hlt
    nlinarith
  rw [this] at hd
  omega

theorem reshapeLeft_ok (img : Img K) (half : Nat) (rows cols : Arr1 Int) (h1 : 1 ≤ half)
    (hr : ∀ k < rows.n, img.row0 + half ≤ rows.get k ∧ rows.get k + half < img.row0 + img.h)
    (hc : ∀ k < cols.n, img.col0 + half ≤ cols.get k ∧ cols.get k + half < img.col0 + img.w)
    (hpr : 0 < rows.n) (hpc : 0 < cols.n) :
    reshapeLeft img (2 * half + 1) half rows cols =
      .ok ((List.range (rows.n * cols.n)).map fun k =>
        windowOf img half (rows.get (k / cols.n)) (cols.get (k % cols.n))) := by
  have hh : 2 * half + 1 ≤ img.h := by have := hr 0 hpr; omega
  have hw : 2 * half + 1 ≤ img.w := by have := hc 0 hpc; omega
  unfold reshapeLeft
  rw [if_neg (by omega), imgAxis_slice _ _ _ h1 hh, imgAxis_slice _ _ _ h1 hw]
  simp only
  have e1 : img.h - (2 * half + 1) + 1 = img.h - 2 * half := by omega
  have e2 : img.w - (2 * half + 1) + 1 = img.w - 2 * half := by omega
  rw [e1, e2, if_neg (lt_irrefl _)]
  set H := img.h - 2 * half with hH
  set W := img.w - 2 * half with hW
  let pos : Nat → Nat := fun k =>
    (rows.get (k / cols.n) - img.row0 - half).toNat * W + (cols.get (k % cols.n) - img.col0 - half).toNat
  have hkept : ((List.range (rows.n * cols.n)).filterMap fun k =>
      lastIdx (patchKey img.w ⟨H, fun i => img.row0 + ((half + i : Nat) : Int)⟩
        ⟨W, fun i => img.col0 + ((half + i : Nat) : Int)⟩) (patchKey img.w rows cols k) (H * W)) =
      (List.range (rows.n * cols.n)).map pos := by
    rw [← List.filterMap_eq_map]
    apply List.filterMap_congr
    intro k hk
    rw [List.mem_range] at hk
    have hkr : k / cols.n < rows.n := (Nat.div_lt_iff_lt_mul hpc).2 hk
    have hkc : k % cols.n < cols.n := Nat.mod_lt _ hpc
    have b1 := hr _ hkr
    have b2 := hc _ hkc
    set R := rows.get (k / cols.n) with hR
    set C := cols.get (k % cols.n) with hC
    have hW0 : 0 < W := by omega
    have c1 : (R - img.row0 - half).toNat < H := by omega
    have c2 : (C - img.col0 - half).toNat < W := by omega
    have d1 : pos k / W = (R - img.row0 - half).toNat := by
      simp only [pos]
      rw [Nat.mul_comm, Nat.mul_add_div hW0, Nat.div_eq_of_lt c2, Nat.add_zero]
    have d2 : pos k % W = (C - img.col0 - half).toNat := by
      simp only [pos]
      rw [Nat.mul_comm, Nat.mul_add_mod, Nat.mod_eq_of_lt c2]
    simp only [Function.comp]
    apply lastIdx_eq
    · calc pos k < (R - img.row0 - half).toNat * W + W := Nat.add_lt_add_left c2 _
        _ = ((R - img.row0 - half).toNat + 1) * W := by ring
        _ ≤ H * W := Nat.mul_le_mul_right _ c1
    · unfold patchKey
      simp only
      rw [d1, d2, ← hR, ← hC]
      have t1 : img.row0 + ((half + (R - img.row0 - half).toNat : Nat) : Int) = R := by omega
      have t2 : img.col0 + ((half + (C - img.col0 - half).toNat : Nat) : Int) = C := by omega
      rw [t1, t2]
    · intro i hi he
      unfold patchKey at he
      simp only at he
      have i1 : i / W < H := (Nat.div_lt_iff_lt_mul hW0).2 hi
      have i2 : i % W < W := Nat.mod_lt _ hW0
      have := key_inj (c0 := img.col0) he (by omega) (by omega) (by rw [← hC]; omega) (by rw [← hC]; omega)
      obtain ⟨u1, u2⟩ := this
      rw [← hR] at u1
      rw [← hC] at u2
      have v1 : i / W = (R - img.row0 - half).toNat := by omega
      have v2 : i % W = (C - img.col0 - half).toNat := by omega
      have := Nat.div_add_mod i W
      rw [v1, v2] at this
      simp only [pos]
      rw [Nat.mul_comm]
      exact this.symm
  rw [hkept, if_neg, List.map_map]
  · congr 1
    apply List.map_congr_left
    intro k hk
    rw [List.mem_range] at hk
    have hkr : k / cols.n < rows.n := (Nat.div_lt_iff_lt_mul hpc).2 hk
    have hkc : k % cols.n < cols.n := Nat.mod_lt _ hpc
    have b1 := hr _ hkr
    have b2 := hc _ hkc
    have hW0 : 0 < W := by omega
    simp only [Function.comp, pos, patchOf, windowOf, e2]
    set R := rows.get (k / cols.n) with hR
    set C := cols.get (k % cols.n) with hC
    have c2 : (C - img.col0 - half).toNat < W := by omega
    congr 1
    funext i j
    rw [Nat.mul_comm _ W, Nat.mul_add_div hW0, Nat.div_eq_of_lt c2, Nat.add_zero, Nat.mul_add_mod, Nat.mod_eq_of_lt c2]
    congr 1 <;> omega
  · intro hnil
    have := congrArg List.length hnil
    simp at this
    rcases this with h | h <;> omega

theorem reshapeLeft_empty (img : Img K) (ws offset : Nat) (rows cols : Arr1 Int) (hz : rows.n * cols.n = 0) :
    ∃ x, reshapeLeft img ws offset rows cols = .error x := by
  unfold reshapeLeft
  rw [hz]
  by_cases h1 : img.h < ws ∨ img.w < ws
  · exact ⟨_, by rw [if_pos h1]⟩
  · rw [if_neg h1]
    simp only [List.range_zero, List.filterMap_nil, if_true]
    split_ifs
    · exact ⟨_, rfl⟩
    · exact ⟨_, rfl⟩

end windows

section flow
variable {K : Type} [Field K] [LinearOrder K]

@[simp] theorem fsub_zero (d : F K) : fsub d (.fin 0) = d := by
  cases d <;> simp [fsub, F.neg, F.add]

/-- Both motions are smaller than one pixel. -/
def small (m : F K × F K) : Bool := F.lt (fabs m.2) (.fin 1) && F.lt (fabs m.1) (.fin 1)

theorem foldl_flow (motion : Nat → F K × F K) (l : List Nat) (s : Flow K) :
    (∀ k, (l.foldl (flowBody motion) s).row k =
      if k ∈ l then (if small (motion k) then (motion k).1 else clip (motion k).1) else s.row k) ∧
    (∀ k, (l.foldl (flowBody motion) s).col k =
      if k ∈ l then (if small (motion k) then (motion k).2 else clip (motion k).2) else s.col k) ∧
    (l.foldl (flowBody motion) s).kept = s.kept ++ l.filter fun k => small (motion k) := by
  induction l generalizing s with
  | nil => simp
  | cons x xs ih =>
    rw [List.foldl_cons]
    obtain ⟨a1, a2, a3⟩ := ih (flowBody motion s x)
    refine ⟨?_, ?_, ?_⟩
    · intro k
      rw [a1]
      by_cases hk : k ∈ xs
      · simp [hk]
      · by_cases hx : k = x
        · subst hx
          simp [hk, flowBody, small, clip]
        · simp [hk, hx, flowBody]
    · intro k
      rw [a2]
      by_cases hk : k ∈ xs
      · simp [hk]
      · by_cases hx : k = x
        · subst hx
          simp [hk, flowBody, small, clip]
        · simp [hk, hx, flowBody]
    · rw [a3, List.filter_cons]
      unfold flowBody
      simp only
      rw [show (F.lt (fabs (motion x).2) (.fin 1) && F.lt (fabs (motion x).1) (.fin 1)) = small (motion x) from rfl]
      split_ifs <;> simp

theorem iterations_spec (e : Ext K) (invalid : F K) (junk : Nat → Nat → Win K) (left : Nat → Win K) (n : Nat)
    (s : Loop K) (k : Nat) :
    (k ∈ s.idxs → ((iterations e invalid junk left n s).row k, (iterations e invalid junk left n s).col k) =
      trajectory (lucasKanade e invalid) e.warp (left k) n (s.right k) (s.row k, s.col k)) ∧
    (k ∉ s.idxs → (iterations e invalid junk left n s).row k = s.row k ∧
      (iterations e invalid junk left n s).col k = s.col k) := by
  induction n generalizing s with
  | zero => simp [iterations, trajectory]
  | succ n ih =>
    obtain ⟨i1, i2⟩ := ih (iterate e invalid (junk n) left s)
    obtain ⟨f1, f2, f3⟩ := foldl_flow (fun i => lucasKanade e invalid (left i) (s.right i)) s.idxs
      ⟨fun _ => .fin 0, fun _ => .fin 0, []⟩
    have er : ∀ k, (iterate e invalid (junk n) left s).row k =
        fsub (s.row k) ((opticalFlow e invalid left s.right s.idxs).row k) := fun _ => rfl
    have ec : ∀ k, (iterate e invalid (junk n) left s).col k =
        fsub (s.col k) ((opticalFlow e invalid left s.right s.idxs).col k) := fun _ => rfl
    have ek : (iterate e invalid (junk n) left s).idxs =
        s.idxs.filter fun i => small (lucasKanade e invalid (left i) (s.right i)) := by
      show (opticalFlow e invalid left s.right s.idxs).kept = _
      unfold opticalFlow
      rw [f3]; simp
    have ew : k ∈ (iterate e invalid (junk n) left s).idxs → (iterate e invalid (junk n) left s).right k =
        e.warp (s.right k) ((opticalFlow e invalid left s.right s.idxs).row k)
          ((opticalFlow e invalid left s.right s.idxs).col k) := by
      intro hk
      show warped e (junk n) s.right _ k = _
      unfold warped
      rw [if_pos]
      exact hk
    constructor
    · intro hk
      unfold iterations trajectory
      simp only
      by_cases hs : small (lucasKanade e invalid (left k) (s.right k)) = true
      · have hk' : k ∈ (iterate e invalid (junk n) left s).idxs := by
          rw [ek, List.mem_filter]; exact ⟨hk, hs⟩
        have hs' : F.lt (fabs (lucasKanade e invalid (left k) (s.right k)).1) (.fin 1) ∧
            F.lt (fabs (lucasKanade e invalid (left k) (s.right k)).2) (.fin 1) := by
          unfold small at hs
          rw [Bool.and_eq_true] at hs
          exact ⟨hs.2, hs.1⟩
        rw [i1 hk', if_pos hs', ew hk', er, ec]
        unfold opticalFlow
        rw [f1, f2]
        simp only [hk, hs, if_true]
      · have hk' : k ∉ (iterate e invalid (junk n) left s).idxs := by
          rw [ek, List.mem_filter]; exact fun h => hs h.2
        have hs' : ¬ (F.lt (fabs (lucasKanade e invalid (left k) (s.right k)).1) (.fin 1) ∧
            F.lt (fabs (lucasKanade e invalid (left k) (s.right k)).2) (.fin 1)) := by
          intro h
          apply hs
          unfold small
          rw [Bool.and_eq_true]
          exact ⟨h.2, h.1⟩
        rw [(i2 hk').1, (i2 hk').2, if_neg hs', er, ec]
        unfold opticalFlow
        rw [f1, f2]
        simp only [hk, hs, if_true, Bool.false_eq_true, if_false]
    · intro hk
      have hk' : k ∉ (iterate e invalid (junk n) left s).idxs := by
        rw [ek, List.mem_filter]; exact fun h => hk h.1
      unfold iterations
      rw [(i2 hk').1, (i2 hk').2, er, ec]
      unfold opticalFlow
      rw [f1, f2]
      simp only [hk, if_false, fsub_zero, and_self]

theorem invalidOutOfGrid_ok {invalid : F K} {sr sc : Nat} {lo hi : Arr2 Int} {delta out : Arr2 (F K)}
    (h : invalidOutOfGrid invalid sr sc lo hi delta = .ok out) :
    out.h = delta.h ∧ out.w = delta.w ∧
    (∀ r c, out.get r c = insideOr invalid (lo.get (r * sr) (c * sc)) (hi.get (r * sr) (c * sc)) (delta.get r c)) ∧
    ((lo.h + sr - 1) / sr = delta.h ∧ (lo.w + sc - 1) / sc = delta.w) := by
  unfold invalidOutOfGrid at h
  simp only at h
  split_ifs at h with hc
  have := Except.ok.inj h
  subst this
  refine ⟨rfl, rfl, ?_, hc.1⟩
  intro r c
  simp only [insideOr]
  by_cases h1 : F.le (delta.get r c) (.fin (lo.get (r * sr) (c * sc) : K)) = true
  · simp only [h1, if_true, true_or]
    split_ifs <;> rfl
  · simp only [h1, Bool.false_eq_true, if_false, false_or]

theorem insideOr_invalid (invalid : F K) (lo hi : Int) : insideOr invalid lo hi invalid = invalid := by
  unfold insideOr; split_ifs <;> rfl

end flow

theorem mapM_range {β : Type} (f : Nat → Except Err β) (n : Nat) (l : List β)
    (h : (List.range n).mapM f = .ok l) : l.length = n ∧ ∀ k < n, ∀ d, f k = .ok (l.getD k d) := by
  induction n generalizing l with
  | zero =>
    simp only [List.range_zero, List.mapM_nil] at h
    have := Except.ok.inj h
    subst this
    simp
  | succ n ih =>
    rw [List.range_succ, List.mapM_append] at h
    rcases h1 : (List.range n).mapM f with e | l1
    · rw [h1] at h; simp [Bind.bind, Except.bind] at h
    · rw [h1] at h
      obtain ⟨a1, a2⟩ := ih l1 h1
      rcases h2 : f n with e | x
      · simp [Bind.bind, Except.bind, h2, List.mapM_cons] at h
      · simp [Bind.bind, Except.bind, h2, List.mapM_cons, pure, Except.pure] at h
        subst h
        refine ⟨by simp [a1], ?_⟩
        intro k hk d
        rcases Nat.lt_or_ge k n with hlt | hge
        · rw [a2 k hlt d]
          simp [List.getD_eq_getElem?_getD, List.getElem?_append_left (by omega : k < l1.length)]
        · have : k = n := by omega
          subst this
          rw [h2]
          simp [List.getD_eq_getElem?_getD, ← a1]

theorem mapM_range_ok {β : Type} (f : Nat → Except Err β) (n : Nat) (h : ∀ k < n, ∃ x, f k = .ok x) :
    ∃ l, (List.range n).mapM f = .ok l := by
  induction n with
  | zero => exact ⟨[], by simp [pure, Except.pure]⟩
  | succ n ih =>
    obtain ⟨l, hl⟩ := ih fun k hk => h k (by omega)
    obtain ⟨x, hx⟩ := h n (by omega)
    refine ⟨l ++ [x], ?_⟩
    rw [List.range_succ, List.mapM_append, hl]
    simp [Bind.bind, Except.bind, hx, List.mapM_cons, pure, Except.pure]

section shift
variable {K : Type} [Field K] [LinearOrder K] [IsStrictOrderedRing K] [FloorRing K]

theorem trunc_intPart (x : K) : IntPart x (trunc x) := by
  unfold trunc IntPart
  split_ifs with h
  · have h0 : (0 : Int) ≤ ⌊x⌋ := Int.floor_nonneg.2 h
    have h0' : (0 : K) ≤ (⌊x⌋ : K) := by exact_mod_cast h0
    rw [abs_of_nonneg h0', abs_of_nonneg h]
    exact ⟨Int.floor_le x, Int.lt_floor_add_one x, mul_nonneg h0' h⟩
  · push Not at h
    have h0 : ⌈x⌉ ≤ (0 : Int) := Int.ceil_le.2 (by exact_mod_cast h.le)
    have h0' : (⌈x⌉ : K) ≤ 0 := by exact_mod_cast h0
    rw [abs_of_nonpos h0', abs_of_neg h]
    refine ⟨by linarith [Int.le_ceil x], by linarith [Int.ceil_lt_add_one x], mul_nonneg_of_nonpos_of_nonpos h0' h.le⟩

theorem shiftOf_spec {invalid d : F K} {s : Int} (h : shiftOf invalid d = .ok s) : StartShift invalid d s := by
  unfold shiftOf at h
  split_ifs at h with hc
  · left
    refine ⟨(Except.ok.inj h).symm, ?_⟩
    rw [Bool.or_eq_true, F.eq_iff] at hc
    rcases hc with hc | hc
    · left; cases d <;> simp_all [F.isNaN]
    · exact .inr hc.1
  · right
    cases d with
    | fin x =>
      have := Except.ok.inj h
      subst this
      refine ⟨x, rfl, ?_, trunc_intPart x⟩
      intro he
      apply hc
      rw [Bool.or_eq_true, F.eq_iff]
      exact .inr ⟨he, rfl⟩
    | _ => simp at h

end shift

end Verif.OpticalFlow
