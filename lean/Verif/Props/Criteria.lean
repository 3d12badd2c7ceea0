import Verif.Lemmas.Criteria
import Verif.Props.OwnRange

/-!
# Properties C23 to C27: criteria
-/

set_option linter.unusedSectionVars false

namespace Verif.Props

open Verif Verif.ImgTools Verif.MatchingCost Verif.Disparity Verif.Spec Verif.Criteria

/-! ## C23 — independent bits -/

/-- C23: whatever the flags that were combined, in any order and with repetitions, the combination contains exactly these
flags. -/
theorem C23_decode (S : List Flag) (f : Flag) : Has (combine S) f ↔ f ∈ S := by
  induction S with
  | nil => simp [combine, VALID, not_has_zero]
  | cons g S ih =>
    rw [combine, has_or, has_value, ih, List.mem_cons]
    constructor
    · rintro (h | h)
      · exact Or.inl h.symm
      · exact Or.inr h
    · rintro (h | h)
      · exact Or.inl h.symm
      · exact Or.inr h

/-- C23: `VALID` is the empty combination only. -/
theorem C23_valid_iff_empty (S : List Flag) : combine S = VALID ↔ S = [] := by
  constructor
  · intro h
    cases S with
    | nil => rfl
    | cons g S =>
      have : Has (combine (g :: S)) g := (C23_decode _ _).2 (by simp)
      rw [h] at this
      exact absurd this (not_has_zero g)
  · rintro rfl; rfl

theorem combine_testBit (S : List Flag) (k : Nat) (hk : (combine S).testBit k = true) : ∃ f : Flag, f.rank = k := by
  induction S with
  | nil => simp [combine, VALID] at hk
  | cons g S ih =>
    rw [combine, Nat.testBit_or, Bool.or_eq_true] at hk
    rcases hk with h | h
    · rw [value_eq, Nat.testBit_two_pow] at h
      exact ⟨g, by simpa using h⟩
    · exact ih h

/-- C23: two combinations are equal exactly when they record the same set of flags. -/
theorem C23_injective (S T : List Flag) : combine S = combine T ↔ ∀ f, f ∈ S ↔ f ∈ T := by
  constructor
  · intro h f
    rw [← C23_decode, ← C23_decode, h]
  · intro h
    apply Nat.eq_of_testBit_eq
    intro k
    by_cases hk : ∃ f : Flag, f.rank = k
    · obtain ⟨f, rfl⟩ := hk
      have h1 := (has_iff (combine S) f)
      have h2 := (has_iff (combine T) f)
      rw [C23_decode] at h1 h2
      have := h f
      rw [h1, h2] at this
      cases e1 : (combine S).testBit f.rank <;> cases e2 : (combine T).testBit f.rank <;> simp_all
    · cases e1 : (combine S).testBit k with
      | true => exact absurd (combine_testBit S k e1) hk
      | false =>
        cases e2 : (combine T).testBit k with
        | true => exact absurd (combine_testBit T k e2) hk
        | false => rfl

/-- Test: the values of the members. -/
example : [Flag.leftBorder, .leftNodata, .rightNodata, .rightDisparityOutside, .invalidityMaskLeft, .invalidityMaskRight,
    .peakOnEdge, .disparityUnprocessed].map Flag.value = [1, 2, 4, 8, 16, 32, 64, 128] := by decide

/-- `v` is the combination of exactly the flags which satisfy `P`. -/
def Rep (v : Nat) (P : Flag → Prop) : Prop := (∃ S, v = combine S) ∧ ∀ f, Has v f ↔ P f

theorem rep_valid : Rep VALID (fun _ => False) := ⟨⟨[], rfl⟩, fun f => by simp [VALID, not_has_zero]⟩

theorem Rep.congr {v : Nat} {P Q : Flag → Prop} (h : Rep v P) (e : ∀ f, P f ↔ Q f) : Rep v Q :=
  ⟨h.1, fun f => (h.2 f).trans (e f)⟩

theorem Rep.orValue {v : Nat} {P : Flag → Prop} (h : Rep v P) (g : Flag) :
    Rep (v ||| g.value) (fun f => P f ∨ f = g) := by
  obtain ⟨⟨S, rfl⟩, hP⟩ := h
  refine ⟨⟨g :: S, by rw [combine, Nat.or_comm]⟩, fun f => ?_⟩
  rw [has_or, hP, has_value]
  constructor
  · rintro (h | h)
    · exact Or.inl h
    · exact Or.inr h.symm
  · rintro (h | h)
    · exact Or.inl h
    · exact Or.inr h.symm

open Classical in
theorem Rep.orIf {v : Nat} {P : Flag → Prop} (h : Rep v P) (g : Flag) (b : Prop) :
    Rep (if b then v ||| g.value else v) (fun f => P f ∨ (f = g ∧ b)) := by
  by_cases hb : b
  · rw [if_pos hb]
    exact (h.orValue g).congr (fun f => by simp [hb])
  · rw [if_neg hb]
    exact h.congr (fun f => by simp [hb])

theorem Rep.valid_iff {v : Nat} {P : Flag → Prop} (h : Rep v P) : v = VALID ↔ ∀ f, ¬ P f := by
  obtain ⟨⟨S, rfl⟩, hP⟩ := h
  rw [C23_valid_iff_empty]
  constructor
  · rintro rfl f hf
    have := (hP f).2 hf
    rw [C23_decode] at this
    simp at this
  · intro hno
    rw [List.eq_nil_iff_forall_not_mem]
    intro f hf
    exact hno f ((hP f).1 ((C23_decode S f).2 hf))

variable {K : Type} [Field K] [LinearOrder K] [IsStrictOrderedRing K] [FloorRing K]

/-! ## C25 — right criteria at the displaced pixel -/

/-- C25: with integer disparities and a mask of the shape of the criteria, `apply_right_criteria_mask` succeeds, keeps the
coordinates, and a cell contains a flag afterwards if and only if it contained it before or the mask contains it at the
displaced pixel, which must exist. Every disparity is allowed, larger than the image included. -/
theorem C25_displaced (x : Crit K) (mask : Arr2 Nat) (hf : x.floatDisp = false) (hh : mask.h = x.row.n)
    (hw : mask.w = x.col.n) (dr dc : Nat → Int) (hdr : ∀ j < x.dispRow.n, x.dispRow.get j = (dr j : K))
    (hdc : ∀ i < x.dispCol.n, x.dispCol.get i = (dc i : K)) :
    ∃ y, applyRight x mask = .ok y ∧ y.row = x.row ∧ y.col = x.col ∧ y.dispCol = x.dispCol ∧ y.dispRow = x.dispRow ∧
      ∀ r < x.row.n, ∀ c < x.col.n, ∀ i < x.dispCol.n, ∀ j < x.dispRow.n, ∀ f,
        Has (y.data r c i j) f ↔ Has (x.data r c i j) f ∨
          ((0 ≤ (r : Int) + dr j ∧ (r : Int) + dr j < mask.h) ∧ (0 ≤ (c : Int) + dc i ∧ (c : Int) + dc i < mask.w) ∧
            Has (mask.get ((r : Int) + dr j).toNat ((c : Int) + dc i).toNat) f) := by
  obtain ⟨d', e, p⟩ := applyRight_ok x mask hf hh hw
  refine ⟨_, e, rfl, rfl, rfl, rfl, fun r hr c hc i hi j hj f => ?_⟩
  simp only
  rw [p r hr c hc i hi j hj, hdr j hj, hdc i hi, Int.floor_intCast, Int.floor_intCast, has_or]
  apply or_congr_right
  unfold contrib
  split_ifs with h
  · simp [h.1.1, h.1.2, h.2.1, h.2.2]
  · simp only [not_has_zero, false_iff]
    rintro ⟨a, b, -⟩
    exact h ⟨a, b⟩

/-- Error branch of C25: with a subpixel factor (disparities of float type) the function raises `TypeError`. -/
theorem C25_subpixel_raises (x : Crit K) (mask : Arr2 Nat) (hf : x.floatDisp = true) (h1 : 0 < x.dispRow.n)
    (h2 : 0 < x.dispCol.n) : applyRight x mask = .error .typeError := by
  obtain ⟨n, hn⟩ : ∃ n, x.dispRow.n = n + 1 := ⟨x.dispRow.n - 1, by omega⟩
  obtain ⟨m, hm⟩ : ∃ m, x.dispCol.n = m + 1 := ⟨x.dispCol.n - 1, by omega⟩
  unfold applyRight
  rw [hn, hm, List.range_succ_eq_map, List.range_succ_eq_map]
  simp only [List.flatMap_cons, List.map_cons, List.cons_append, List.foldlM_cons]
  unfold rightStep
  simp [hf, bind, Except.bind]

/-- Test: 2 x 2 mask flagged at (1, 0), disparities row 1 and column -1: the flag reaches cell (0, 1) only. -/
example : ((applyRight (K := ℚ) ⟨⟨2, fun k => k⟩, ⟨2, fun k => k⟩, ⟨1, fun _ => -1⟩, ⟨1, fun _ => 1⟩, false, fun _ _ _ _ => 1⟩
    ⟨2, 2, fun r c => if r = 1 ∧ c = 0 then 4 else 0⟩).toOption.map fun y =>
      (List.range 2).map fun r => (List.range 2).map fun c => y.data r c 0 0) = some [[1, 5], [1, 1]] := by
  decide +kernel

/-! ## C26 — left border -/

/-- C26, full statement: a cell is set to the border flag exactly when the window centred on its coordinates leaves the
left image of rows `[row0, row0 + h)` and columns `[col0, col0 + w)`, and keeps its value otherwise, for the coordinates of
any step. -/
def C26Statement (K : Type) [Field K] [LinearOrder K] [IsStrictOrderedRing K] [FloorRing K] : Prop :=
  ∀ (x : Crit K) (row0 col0 : Int) (h w sr sc o : Nat), 1 ≤ sr → 1 ≤ sc →
    x.row = arangeA row0 (row0 + h) sr → x.col = arangeA col0 (col0 + w) sc →
    ∀ r < x.row.n, ∀ c < x.col.n, ∀ i j,
      ((¬ WindowInside h w o ((x.row.get r - row0 : Int) : K) ((x.col.get c - col0 : Int) : K)) →
        (maskBorder o x).data r c i j = Flag.leftBorder.value) ∧
      (WindowInside h w o ((x.row.get r - row0 : Int) : K) ((x.col.get c - col0 : Int) : K) →
        (maskBorder o x).data r c i j = x.data r c i j)

/-- C26 is false of the code with a step: image of 7 x 7 pixels, step 2, half-size 2: the point of row 2, column 2 has its
window inside the image, its cells are overwritten by the border flag (the offset is counted in points of the volume, not
in pixels). -/
theorem C26_false_with_step : ¬ C26Statement ℚ := by
  intro h
  have := (h ⟨arangeA 0 7 2, arangeA 0 7 2, ⟨1, fun _ => 0⟩, ⟨1, fun _ => 0⟩, false, fun _ _ _ _ => 0⟩ 0 0 7 7 2 2 2
    (by decide) (by decide) rfl rfl 1 (by decide) 1 (by decide) 0 0).2 (by
      norm_num [WindowInside, arangeA])
  revert this
  decide

/-- C26 (partial: all the pixels of the image, that is a step of one): the border flag is written exactly on the cells of
the pixels whose window leaves the image, over any other flag, the other cells keep their value. Missing: steps larger than
one, for which the statement is false. -/
theorem C26_border_exact_partial (x : Crit K) (row0 col0 : Int) (h w o : Nat)
    (hc : FullCoords x.row x.col row0 col0 h w) {r c : Nat} (hr : r < h) (hcc : c < w) (i j : Nat) :
    (¬ WindowInside h w o (r : K) (c : K) → (maskBorder o x).data r c i j = Flag.leftBorder.value) ∧
    (WindowInside h w o (r : K) (c : K) → (maskBorder o x).data r c i j = x.data r c i j) := by
  obtain ⟨⟨h1, -⟩, ⟨h2, -⟩⟩ := hc
  have key : WindowInside h w o (r : K) (c : K) ↔ (o ≤ r ∧ r + o < h) ∧ (o ≤ c ∧ c + o < w) := by
    unfold WindowInside
    have cast : ∀ n k : Nat, ((k : K) ≤ (n : K) - 1 - (o : K)) ↔ k + o < n := by
      intro n k
      rw [show ((k : K) ≤ (n : K) - 1 - (o : K)) ↔ ((k : K) + (o : K) + 1 ≤ (n : K)) from
        ⟨fun h => by linarith, fun h => by linarith⟩]
      rw [show ((k : K) + (o : K) + 1 ≤ (n : K)) ↔ ((k + o + 1 : Nat) : K) ≤ (n : K) by push_cast; rfl, Nat.cast_le]
      omega
    rw [cast, cast, Nat.cast_le, Nat.cast_le]
  rw [key]
  unfold maskBorder
  by_cases ho : 0 < o
  · rw [if_pos ho]
    simp only
    have b1 := inBorder_iff x.row.n o r (by omega) ho
    have b2 := inBorder_iff x.col.n o c (by omega) ho
    rw [h1] at b1
    rw [h2] at b2
    constructor
    · intro hout
      rw [if_pos]
      rw [Bool.or_eq_true, h1, h2, b1, b2]
      tauto
    · intro hin
      rw [if_neg]
      rw [Bool.or_eq_true, h1, h2, b1, b2]
      tauto
  · rw [if_neg ho]
    refine ⟨fun hout => absurd ⟨⟨by omega, by omega⟩, by omega, by omega⟩ hout, fun _ => rfl⟩

/-! ## C27 — outside the right image -/

/-- C27 on the coordinates of the criteria, any step: the flag is added exactly to the cells whose displaced point is closer
than the offset to the first or last coordinates of the criteria, or beyond; every other flag is preserved. -/
theorem maskOutside_spec (x : Crit K) (o : Nat) (hr0 : 0 < x.row.n) (hc0 : 0 < x.col.n) :
    ∃ d', maskOutside o x = .ok { x with data := d' } ∧ ∀ r c i j,
      (((x.row.get 0 : K) + o ≤ (x.row.get r : K) + x.dispRow.get j ∧
        (x.row.get r : K) + x.dispRow.get j ≤ (x.row.get (x.row.n - 1) : K) - o) ∧
       ((x.col.get 0 : K) + o ≤ (x.col.get c : K) + x.dispCol.get i ∧
        (x.col.get c : K) + x.dispCol.get i ≤ (x.col.get (x.col.n - 1) : K) - o) ∧ d' r c i j = x.data r c i j) ∨
      (¬ (((x.row.get 0 : K) + o ≤ (x.row.get r : K) + x.dispRow.get j ∧
        (x.row.get r : K) + x.dispRow.get j ≤ (x.row.get (x.row.n - 1) : K) - o) ∧
       ((x.col.get 0 : K) + o ≤ (x.col.get c : K) + x.dispCol.get i ∧
        (x.col.get c : K) + x.dispCol.get i ≤ (x.col.get (x.col.n - 1) : K) - o)) ∧
        d' r c i j = x.data r c i j ||| Flag.rightDisparityOutside.value) := by
  unfold maskOutside
  rw [if_neg (by omega)]
  refine ⟨_, rfl, fun r c i j => ?_⟩
  simp only [swap12, swap13]
  split_ifs with h
  · right
    refine ⟨?_, if_pos h⟩
    simp only [Bool.or_eq_true, decide_eq_true_eq] at h
    rintro ⟨⟨a, b⟩, c', d⟩
    rcases h with ((h | h) | h) | h
    · exact absurd h (not_lt.2 a)
    · exact absurd h (not_lt.2 b)
    · exact absurd h (not_lt.2 c')
    · exact absurd h (not_lt.2 d)
  · left
    have h0 := h
    simp only [Bool.or_eq_true, decide_eq_true_eq, not_or, not_lt, gt_iff_lt] at h
    exact ⟨⟨h.1.1.1, h.1.1.2⟩, ⟨h.1.2, h.2⟩, if_neg h0⟩

/-- C27, full statement: for the coordinates of any step in an image of rows `[row0, row0 + h)`, columns
`[col0, col0 + w)`, the flag is added exactly to the cells whose displaced window leaves the right image, the other flags are
preserved. -/
def C27Statement (K : Type) [Field K] [LinearOrder K] [IsStrictOrderedRing K] [FloorRing K] : Prop :=
  ∀ (x : Crit K) (row0 col0 : Int) (h w sr sc o : Nat), 1 ≤ sr → 1 ≤ sc → 0 < h → 0 < w →
    x.row = arangeA row0 (row0 + h) sr → x.col = arangeA col0 (col0 + w) sc →
    ∃ y, maskOutside o x = .ok y ∧ ∀ r < x.row.n, ∀ c < x.col.n, ∀ i < x.dispCol.n, ∀ j < x.dispRow.n,
      (WindowInside h w o (((x.row.get r - row0 : Int) : K) + x.dispRow.get j)
          (((x.col.get c - col0 : Int) : K) + x.dispCol.get i) → y.data r c i j = x.data r c i j) ∧
      (¬ WindowInside h w o (((x.row.get r - row0 : Int) : K) + x.dispRow.get j)
          (((x.col.get c - col0 : Int) : K) + x.dispCol.get i) →
        y.data r c i j = x.data r c i j ||| Flag.rightDisparityOutside.value)

/-- C27 is false of the code with a step: 4 rows, step 2 (rows 0 and 2), row disparity 1: the displaced row 3 exists in the
right image, the cell is flagged as outside (the limit is the last coordinate of the volume, 2). -/
theorem C27_false_with_step : ¬ C27Statement ℚ := by
  intro h
  obtain ⟨y, hy, hp⟩ := h ⟨arangeA 0 4 2, arangeA 0 4 1, ⟨1, fun _ => 0⟩, ⟨1, fun _ => 1⟩, false, fun _ _ _ _ => 0⟩ 0 0 4 4 2 1 0
    (by decide) (by decide) (by decide) (by decide) rfl rfl
  have h1 := (hp 1 (by decide) 0 (by decide) 0 (by decide) 0 (by decide)).1 (by norm_num [WindowInside, arangeA])
  have h2 : ((maskOutside (K := ℚ) 0 ⟨arangeA 0 4 2, arangeA 0 4 1, ⟨1, fun _ => 0⟩, ⟨1, fun _ => 1⟩, false, fun _ _ _ _ => 0⟩).toOption.map
      fun y => y.data 1 0 0 0) = some 8 := by decide +kernel
  rw [hy] at h2
  simp only [Except.toOption, Option.map_some, Option.some.injEq] at h2
  rw [h1] at h2
  simp at h2

/-- C27 (partial: all the pixels of the image, that is a step of one; any subpixel factor): the flag is added exactly to the
cells whose displaced window leaves the right image, and every other flag is preserved. Missing: steps larger than one, for
which the statement is false. -/
theorem C27_outside_exact_partial (x : Crit K) (row0 col0 : Int) (h w o : Nat) (hh : 0 < h) (hw : 0 < w)
    (hc : FullCoords x.row x.col row0 col0 h w) :
    ∃ y, maskOutside o x = .ok y ∧ (y.row = x.row ∧ y.col = x.col ∧ y.dispCol = x.dispCol ∧ y.dispRow = x.dispRow) ∧
    ∀ r < h, ∀ c < w, ∀ i j,
      (WindowInside h w o ((r : K) + x.dispRow.get j) ((c : K) + x.dispCol.get i) → y.data r c i j = x.data r c i j) ∧
      (¬ WindowInside h w o ((r : K) + x.dispRow.get j) ((c : K) + x.dispCol.get i) →
        y.data r c i j = x.data r c i j ||| Flag.rightDisparityOutside.value) := by
  obtain ⟨⟨h1, g1⟩, ⟨h2, g2⟩⟩ := hc
  obtain ⟨d', e, p⟩ := maskOutside_spec x o (by omega) (by omega)
  refine ⟨_, e, ⟨rfl, rfl, rfl, rfl⟩, fun r hr c hcc i j => ?_⟩
  have q := p r c i j
  rw [h1, h2, g1 0 (by omega), g1 r hr, g1 (h - 1) (by omega), g2 0 (by omega), g2 c hcc, g2 (w - 1) (by omega)] at q
  have key : ∀ (z0 : Int) (n k : Nat) (d : K), 0 < n →
      ((((z0 + (0 : Nat) : Int) : K) + o ≤ ((z0 + (k : Nat) : Int) : K) + d ∧
        ((z0 + (k : Nat) : Int) : K) + d ≤ ((z0 + ((n - 1 : Nat) : Nat) : Int) : K) - o) ↔
      ((o : K) ≤ (k : K) + d ∧ (k : K) + d ≤ (n : K) - 1 - (o : K))) := by
    intro z0 n k d hn
    obtain ⟨m, rfl⟩ : ∃ m, n = m + 1 := ⟨n - 1, by omega⟩
    rw [Nat.add_sub_cancel]
    push_cast
    constructor <;> rintro ⟨a, b⟩ <;> constructor <;> linarith
  rw [key row0 h r _ hh, key col0 w c _ hw] at q
  simp only
  unfold WindowInside
  rcases q with ⟨a, b, q⟩ | ⟨a, q⟩
  · exact ⟨fun _ => q, fun hn => absurd ⟨a, b⟩ hn⟩
  · exact ⟨fun hn => absurd hn a, fun _ => q⟩

/-! ## C24 — VALID exactly for usable cells -/

/-- Criteria of the same coordinates with other values. -/
def SameAxes (x y : Crit K) : Prop :=
  y.row = x.row ∧ y.col = x.col ∧ y.dispCol = x.dispCol ∧ y.dispRow = x.dispRow ∧ y.floatDisp = x.floatDisp

open Classical in
theorem orMask_rep (x : Crit K) (mask : Nat → Nat → Bool) (f : Flag) (h w : Nat) (hh : h = x.row.n) (hw : w = x.col.n)
    (P : Nat → Nat → Nat → Nat → Flag → Prop)
    (hx : ∀ r < x.row.n, ∀ c < x.col.n, ∀ i < x.dispCol.n, ∀ j < x.dispRow.n, Rep (x.data r c i j) (P r c i j)) :
    ∃ y, orMask x h w mask f = .ok y ∧ SameAxes x y ∧
      ∀ r < x.row.n, ∀ c < x.col.n, ∀ i < x.dispCol.n, ∀ j < x.dispRow.n,
        Rep (y.data r c i j) (fun g => P r c i j g ∨ (g = f ∧ mask r c = true)) := by
  unfold orMask
  rw [if_pos ⟨hh, hw⟩]
  refine ⟨_, rfl, ⟨rfl, rfl, rfl, rfl, rfl⟩, fun r hr c hc i hi j hj => ?_⟩
  have := (hx r hr c hc i hi j hj).orIf f (mask r c = true)
  simp only
  by_cases hm : mask r c = true <;> simpa only [hm, if_true, if_false] using this

theorem rep_or_contrib {v : Nat} {P : Flag → Prop} (hv : Rep v P) (f : Flag) (h w : Nat) (b : Nat → Nat → Bool) (r c : Nat)
    (dr dc : Int) :
    Rep (v ||| contrib ⟨h, w, fun r c => if b r c then VALID ||| f.value else VALID⟩ r c dr dc)
      (fun g => P g ∨ (g = f ∧ ((0 ≤ (r : Int) + dr ∧ (r : Int) + dr < h) ∧ (0 ≤ (c : Int) + dc ∧ (c : Int) + dc < w)) ∧
        b ((r : Int) + dr).toNat ((c : Int) + dc).toNat = true)) := by
  unfold contrib
  simp only
  split_ifs with h1 h2
  · have e : VALID ||| f.value = f.value := by simp [VALID]
    rw [e]
    exact (hv.orValue f).congr (fun g => by simp [h1, h2])
  · have e : v ||| VALID = v := by simp [VALID]
    rw [e]
    exact hv.congr (fun g => by simp [h2])
  · rw [Nat.or_zero]
    exact hv.congr (fun g => by simp [h1])

theorem applyRight_rep (x : Crit K) (f : Flag) (h w : Nat) (b : Nat → Nat → Bool) (hf : x.floatDisp = false)
    (hh : h = x.row.n) (hw : w = x.col.n) (P : Nat → Nat → Nat → Nat → Flag → Prop)
    (hx : ∀ r < x.row.n, ∀ c < x.col.n, ∀ i < x.dispCol.n, ∀ j < x.dispRow.n, Rep (x.data r c i j) (P r c i j)) :
    ∃ y, applyRight x ⟨h, w, fun r c => if b r c then VALID ||| f.value else VALID⟩ = .ok y ∧ SameAxes x y ∧
      ∀ r < x.row.n, ∀ c < x.col.n, ∀ i < x.dispCol.n, ∀ j < x.dispRow.n,
        Rep (y.data r c i j) (fun g => P r c i j g ∨ (g = f ∧
          ((0 ≤ (r : Int) + ⌊x.dispRow.get j⌋ ∧ (r : Int) + ⌊x.dispRow.get j⌋ < h) ∧
            (0 ≤ (c : Int) + ⌊x.dispCol.get i⌋ ∧ (c : Int) + ⌊x.dispCol.get i⌋ < w)) ∧
          b ((r : Int) + ⌊x.dispRow.get j⌋).toNat ((c : Int) + ⌊x.dispCol.get i⌋).toNat = true)) := by
  obtain ⟨d', e, p⟩ := applyRight_ok x ⟨h, w, fun r c => if b r c then VALID ||| f.value else VALID⟩ hf hh hw
  refine ⟨_, e, ⟨rfl, rfl, rfl, rfl, rfl⟩, fun r hr c hc i hi j hj => ?_⟩
  simp only
  rw [p r hr c hc i hi j hj]
  exact rep_or_contrib (hx r hr c hc i hi j hj) f h w b r c _ _

theorem leftBlock (left : Img K) (o : Nat) (x : Crit K) (hh : left.h = x.row.n) (hw : left.w = x.col.n)
    (hx : ∀ r c i j, x.data r c i j = VALID) :
    ∃ y, leftMasks left (2 * o + 1) x = .ok y ∧ SameAxes x y ∧
      ∀ r < x.row.n, ∀ c < x.col.n, ∀ i < x.dispCol.n, ∀ j < x.dispRow.n,
        Rep (y.data r c i j) (fun g => (g = .leftNodata ∧ NoDataInWindow left o r c) ∨
          (g = .invalidityMaskLeft ∧ InvalidPixel left r c)) := by
  unfold leftMasks
  cases hm : left.msk with
  | none =>
    refine ⟨x, rfl, ⟨rfl, rfl, rfl, rfl, rfl⟩, fun r _ c _ i _ j _ => ?_⟩
    rw [hx]
    apply rep_valid.congr
    intro f
    simp [NoDataInWindow, InvalidPixel, Pandora.noDataAt, Pandora.invalidAt, hm]
  | some m =>
    rw [Option.isSome_some, if_pos rfl]
    unfold maskLeftNoData maskLeftInvalid
    obtain ⟨y, ey, ⟨a1, a2, a3, a4, a5⟩, ry⟩ := orMask_rep x (dilated left (2 * o + 1)) .leftNodata left.h left.w hh hw
      (fun _ _ _ _ _ => False) (fun r _ c _ i _ j _ => by rw [hx]; exact rep_valid)
    obtain ⟨t, et, ⟨b1, b2, b3, b4, b5⟩, rt⟩ := orMask_rep y (Pandora.invalidAt left) .invalidityMaskLeft left.h left.w
      (by rw [a1]; exact hh) (by rw [a2]; exact hw) _ (by rw [a1, a2, a3, a4]; exact ry)
    refine ⟨t, ?_, ⟨b1.trans a1, b2.trans a2, b3.trans a3, b4.trans a4, b5.trans a5⟩, fun r hr c hc i hi j hj => ?_⟩
    · rw [ey]; exact et
    · apply (rt r (by rw [a1]; exact hr) c (by rw [a2]; exact hc) i (by rw [a3]; exact hi) j (by rw [a4]; exact hj)).congr
      intro f
      rw [dilated_iff]
      have : InvalidPixel left r c ↔ Pandora.invalidAt left r c = true := by
        unfold InvalidPixel
        simp only [Int.toNat_natCast]
        constructor
        · exact fun h => h.2
        · exact fun h => ⟨⟨by omega, by omega, by omega, by omega⟩, h⟩
      rw [this]
      simp

theorem rightBlock (right : Img K) (o : Nat) (x : Crit K) (hh : right.h = x.row.n) (hw : right.w = x.col.n)
    (hf : right.msk.isSome = true → x.floatDisp = false ∧ (∀ j < x.dispRow.n, ∃ k : Int, x.dispRow.get j = k) ∧
      (∀ i < x.dispCol.n, ∃ k : Int, x.dispCol.get i = k))
    (P : Nat → Nat → Nat → Nat → Flag → Prop)
    (hx : ∀ r < x.row.n, ∀ c < x.col.n, ∀ i < x.dispCol.n, ∀ j < x.dispRow.n, Rep (x.data r c i j) (P r c i j)) :
    ∃ y, rightMasks right (2 * o + 1) x = .ok y ∧ SameAxes x y ∧
      ∀ r < x.row.n, ∀ c < x.col.n, ∀ i < x.dispCol.n, ∀ j < x.dispRow.n,
        Rep (y.data r c i j) (fun g => P r c i j g ∨
          (g = .rightNodata ∧ ∃ y' x' : Int, (y' : K) = (r : K) + x.dispRow.get j ∧ (x' : K) = (c : K) + x.dispCol.get i ∧
            NoDataPixel right o y' x') ∨
          (g = .invalidityMaskRight ∧ ∃ y' x' : Int, (y' : K) = (r : K) + x.dispRow.get j ∧
            (x' : K) = (c : K) + x.dispCol.get i ∧ InvalidPixel right y' x')) := by
  unfold rightMasks
  cases hm : right.msk with
  | none =>
    refine ⟨x, rfl, ⟨rfl, rfl, rfl, rfl, rfl⟩, fun r hr c hc i hi j hj => ?_⟩
    apply (hx r hr c hc i hi j hj).congr
    intro f
    simp [NoDataPixel, NoDataInWindow, InvalidPixel, Pandora.noDataAt, Pandora.invalidAt, hm]
  | some m =>
    rw [Option.isSome_some, if_pos rfl]
    obtain ⟨hf1, hf2, hf3⟩ := hf (by rw [hm]; rfl)
    unfold maskRightNoData maskRightInvalid
    obtain ⟨y, ey, ⟨a1, a2, a3, a4, a5⟩, ry⟩ := applyRight_rep x .rightNodata right.h right.w (dilated right (2 * o + 1))
      hf1 hh hw P hx
    obtain ⟨t, et, ⟨b1, b2, b3, b4, b5⟩, rt⟩ := applyRight_rep y .invalidityMaskRight right.h right.w
      (Pandora.invalidAt right) (by rw [a5]; exact hf1) (by rw [a1]; exact hh) (by rw [a2]; exact hw) _
      (by rw [a1, a2, a3, a4]; exact ry)
    refine ⟨t, ?_, ⟨b1.trans a1, b2.trans a2, b3.trans a3, b4.trans a4, b5.trans a5⟩, fun r hr c hc i hi j hj => ?_⟩
    · rw [ey]; exact et
    · apply (rt r (by rw [a1]; exact hr) c (by rw [a2]; exact hc) i (by rw [a3]; exact hi) j (by rw [a4]; exact hj)).congr
      intro f
      obtain ⟨kr, hkr⟩ := hf2 j hj
      obtain ⟨kc, hkc⟩ := hf3 i hi
      rw [a3, a4, hkr, hkc, Int.floor_intCast, Int.floor_intCast, or_assoc]
      apply or_congr_right
      have uniq : ∀ Q : Int → Int → Prop, (∃ y' x' : Int, (y' : K) = (r : K) + (kr : K) ∧ (x' : K) = (c : K) + (kc : K) ∧ Q y' x') ↔
          Q ((r : Int) + kr) ((c : Int) + kc) := by
        intro Q
        constructor
        · rintro ⟨y', x', e1, e2, q⟩
          have e1' : y' = (r : Int) + kr := by exact_mod_cast e1
          have e2' : x' = (c : Int) + kc := by exact_mod_cast e2
          rw [← e1', ← e2']; exact q
        · intro q
          exact ⟨_, _, by push_cast; rfl, by push_cast; rfl, q⟩
      rw [uniq, uniq]
      apply or_congr
      · apply and_congr_right
        intro _
        unfold NoDataPixel
        rw [dilated_iff]
        constructor
        · rintro ⟨⟨⟨u1, u2⟩, u3, u4⟩, u5⟩
          rw [Int.toNat_of_nonneg u1, Int.toNat_of_nonneg u3] at u5
          exact ⟨⟨u1, u2, u3, u4⟩, u5⟩
        · rintro ⟨⟨u1, u2, u3, u4⟩, u5⟩
          rw [Int.toNat_of_nonneg u1, Int.toNat_of_nonneg u3]
          exact ⟨⟨⟨u1, u2⟩, u3, u4⟩, u5⟩
      · apply and_congr_right
        intro _
        unfold InvalidPixel
        tauto

/-- C24 (partial: all the pixels of the image, that is a step of one; with a right mask, integer disparities): the criteria
are computed, and the value of each cell is
* exactly the unprocessed flag when a disparity is outside the range of the pixel,
* else exactly the border flag when the window of the left pixel leaves the image,
* else the combination of exactly the flags whose announced condition holds.
Missing: steps larger than one (the left masks then raise `IndexError`, theorem `C24_left_mask_with_step_raises`; without
masks the border and outside flags are wrong, `C26_false_with_step`, `C27_false_with_step`), subpixel disparities with a
right mask (`TypeError`, theorem `C25_subpixel_raises`). -/
theorem C24_cells_exact_partial (left : Left K) (right : Img K) (o : Nat) (cv : CostVolumes K) (hp : PairOk left right)
    (hc : FullCoords cv.row cv.col left.img.row0 left.img.col0 left.img.h left.img.w)
    (hf : right.msk.isSome = true → cv.subpixel = 1 ∧ (∀ j < cv.dispRow.n, ∃ k : Int, cv.dispRow.get j = k) ∧
      (∀ i < cv.dispCol.n, ∃ k : Int, cv.dispCol.get i = k)) :
    ∃ y, getCriteria left right (2 * o + 1) o cv = .ok y ∧
      (y.row = cv.row ∧ y.col = cv.col ∧ y.dispCol = cv.dispCol ∧ y.dispRow = cv.dispRow) ∧
      ∀ r < left.img.h, ∀ c < left.img.w, ∀ i < cv.dispCol.n, ∀ j < cv.dispRow.n,
        (¬ (InRange left.rowDisp r c (cv.dispRow.get j) ∧ InRange left.colDisp r c (cv.dispCol.get i)) →
          y.data r c i j = Flag.disparityUnprocessed.value) ∧
        (InRange left.rowDisp r c (cv.dispRow.get j) ∧ InRange left.colDisp r c (cv.dispCol.get i) →
          (¬ WindowInside left.img.h left.img.w o (r : K) (c : K) → y.data r c i j = Flag.leftBorder.value) ∧
          (WindowInside left.img.h left.img.w o (r : K) (c : K) →
            Rep (y.data r c i j) (Announced left.img right o r c (cv.dispRow.get j) (cv.dispCol.get i)))) := by
  obtain ⟨⟨n1, g1⟩, ⟨n2, g2⟩⟩ := hc
  unfold getCriteria
  obtain ⟨y1, e1, ⟨a1, a2, a3, a4, a5⟩, r1⟩ := leftBlock left.img o (allocate cv) n1.symm n2.symm (fun _ _ _ _ => rfl)
  obtain ⟨y2, e2, ⟨b1, b2, b3, b4, b5⟩, r2⟩ := rightBlock right o y1 (by rw [a1, hp.sameH]; exact n1.symm)
    (by rw [a2, hp.sameW]; exact n2.symm) (by
      intro hs
      obtain ⟨u1, u2, u3⟩ := hf hs
      rw [a3, a4, a5]
      refine ⟨?_, u2, u3⟩
      unfold allocate
      simp [u1]) _ (by rw [a1, a2, a3, a4]; exact r1)
  have fc2 : FullCoords y2.row y2.col left.img.row0 left.img.col0 left.img.h left.img.w := by
    rw [b1, a1, b2, a2]; exact ⟨⟨n1, g1⟩, ⟨n2, g2⟩⟩
  obtain ⟨y3, e3, ⟨c1, c2, c3, c4⟩, r3⟩ := C27_outside_exact_partial y2 left.img.row0 left.img.col0 left.img.h left.img.w o
    hp.hpos hp.wpos fc2
  have fc3 : FullCoords y3.row y3.col left.img.row0 left.img.col0 left.img.h left.img.w := by
    rw [c1, c2]; exact fc2
  have r4 := fun r c (hr : r < left.img.h) (hc : c < left.img.w) =>
    C26_border_exact_partial y3 left.img.row0 left.img.col0 left.img.h left.img.w o fc3 hr hc
  set y4 := maskBorder o y3 with hy4
  have d4 : y4.row = y3.row ∧ y4.col = y3.col ∧ y4.dispCol = y3.dispCol ∧ y4.dispRow = y3.dispRow := by
    rw [hy4]; unfold maskBorder; split_ifs <;> exact ⟨rfl, rfl, rfl, rfl⟩
  obtain ⟨d1, d2, d3, d4⟩ := d4
  have er : y4.row = cv.row := d1.trans (c1.trans (b1.trans a1))
  have ec : y4.col = cv.col := d2.trans (c2.trans (b2.trans a2))
  have edc : y4.dispCol = cv.dispCol := d3.trans (c3.trans (b3.trans a3))
  have edr : y4.dispRow = cv.dispRow := d4.trans (c4.trans (b4.trans a4))
  obtain ⟨s1, s2, -, -⟩ := hp.col.shape
  obtain ⟨t1, t2, -, -⟩ := hp.row.shape
  obtain ⟨z1, ez1, ⟨m0, m1, m2, m3⟩, p1⟩ := C08_col_masking_exact y4.arr y4.dispCol (castGrid left.colDisp.lo : Arr2 K)
    (castGrid left.colDisp.hi) Flag.disparityUnprocessed.value none
    (by simp only [castGrid, Crit.arr]; rw [er, n1, s1]) (by simp only [castGrid, Crit.arr]; rw [ec, n2, s2])
    (fun _ _ _ _ => trivial)
  obtain ⟨z2, ez2, -, p2⟩ := C08_row_masking_exact z1 y4.dispRow (castGrid left.rowDisp.lo : Arr2 K)
    (castGrid left.rowDisp.hi) Flag.disparityUnprocessed.value none
    (by rw [m0]; simp only [castGrid, Crit.arr]; rw [er, n1, t1]) (by rw [m1]; simp only [castGrid, Crit.arr]; rw [ec, n2, t2])
    (fun _ _ _ _ => trivial)
  refine ⟨{ y4 with data := z2.get }, ?_, ⟨er, ec, edc, edr⟩, fun r hr c hcc i hi j hj => ?_⟩
  · simp only [bind, Except.bind]
    rw [e1]
    simp only
    rw [e2]
    simp only
    rw [e3]
    simp only
    unfold setUnprocessed
    simp only [bind, Except.bind]
    rw [← hy4, ez1]
    simp only
    rw [ez2]
    rfl
  · have hr' : r < y4.row.n := by rw [er, n1]; exact hr
    have hc' : c < y4.col.n := by rw [ec, n2]; exact hcc
    have hi' : i < y4.dispCol.n := by rw [edc]; exact hi
    have hj' : j < y4.dispRow.n := by rw [edr]; exact hj
    have q2 := p2 r (by rw [m0]; exact hr') c (by rw [m1]; exact hc') i (by rw [m2]; exact hi') j (by rw [m3]; exact hj')
    have q1 := p1 r hr' c hc' i hi' j hj'
    rw [edr] at q2
    rw [edc] at q1
    simp only
    refine ⟨fun hno => ?_, fun hyes => ?_⟩
    · by_cases hrow : InRange left.rowDisp r c (cv.dispRow.get j)
      · rw [q2, if_neg (fun h => h.1 hrow), q1, if_pos ⟨fun hcol => hno ⟨hrow, hcol⟩, trivial⟩]
      · rw [q2, if_pos ⟨hrow, trivial⟩]
    · have q5 : z2.get r c i j = y4.data r c i j := by
        rw [q2, if_neg (fun h => h.1 hyes.1), q1, if_neg (fun h => h.1 hyes.2)]
        rfl
      rw [q5]
      obtain ⟨k1, k2⟩ := r4 r c hr hcc i j
      refine ⟨k1, fun hin => ?_⟩
      rw [k2 hin]
      have q3 := r3 r hr c hcc i j
      have hr2 : r < y1.row.n := by rw [a1]; show r < cv.row.n; rw [n1]; exact hr
      have hc2 : c < y1.col.n := by rw [a2]; show c < cv.col.n; rw [n2]; exact hcc
      have q4 := r2 r hr2 c hc2 i (by rw [a3]; exact hi) j (by rw [a4]; exact hj)
      rw [b3, a3, b4, a4] at q3
      rw [a3, a4] at q4
      simp only [allocate] at q3 q4
      by_cases hwi : WindowInside left.img.h left.img.w o ((r : K) + cv.dispRow.get j) ((c : K) + cv.dispCol.get i)
      · rw [q3.1 hwi]
        apply q4.congr
        intro f
        have hwi' := hwi
        rw [← hp.sameH, ← hp.sameW] at hwi'
        cases f <;> simp [Announced, hwi']
      · rw [q3.2 hwi]
        apply (q4.orValue .rightDisparityOutside).congr
        intro f
        have hwi' := hwi
        rw [← hp.sameH, ← hp.sameW] at hwi'
        cases f <;> simp [Announced, hwi']

/-- C24 (partial, as `C24_cells_exact_partial`): a cell is `VALID` if and only if the disparities are in the ranges of the
pixel, the left window is inside the image and free of no-data, the left pixel is not masked, the displaced window is inside
the right image and free of no-data, and the displaced pixel is not masked. -/
theorem C24_valid_iff_partial (left : Left K) (right : Img K) (o : Nat) (cv : CostVolumes K) (hp : PairOk left right)
    (hc : FullCoords cv.row cv.col left.img.row0 left.img.col0 left.img.h left.img.w)
    (hf : right.msk.isSome = true → cv.subpixel = 1 ∧ (∀ j < cv.dispRow.n, ∃ k : Int, cv.dispRow.get j = k) ∧
      (∀ i < cv.dispCol.n, ∃ k : Int, cv.dispCol.get i = k)) :
    ∃ y, getCriteria left right (2 * o + 1) o cv = .ok y ∧
      ∀ r < left.img.h, ∀ c < left.img.w, ∀ i < cv.dispCol.n, ∀ j < cv.dispRow.n,
        (y.data r c i j = VALID ↔
          (InRange left.rowDisp r c (cv.dispRow.get j) ∧ InRange left.colDisp r c (cv.dispCol.get i)) ∧
          WindowInside left.img.h left.img.w o (r : K) (c : K) ∧
          ¬ NoDataInWindow left.img o r c ∧ ¬ InvalidPixel left.img r c ∧
          WindowInside right.h right.w o ((r : K) + cv.dispRow.get j) ((c : K) + cv.dispCol.get i) ∧
          ∀ y' x' : Int, (y' : K) = (r : K) + cv.dispRow.get j → (x' : K) = (c : K) + cv.dispCol.get i →
            ¬ NoDataPixel right o y' x' ∧ ¬ InvalidPixel right y' x') := by
  obtain ⟨y, e, -, p⟩ := C24_cells_exact_partial left right o cv hp hc hf
  refine ⟨y, e, fun r hr c hcc i hi j hj => ?_⟩
  obtain ⟨p1, p2⟩ := p r hr c hcc i hi j hj
  have nz : ∀ f : Flag, f.value ≠ VALID := by intro f; cases f <;> decide
  by_cases hin : InRange left.rowDisp r c (cv.dispRow.get j) ∧ InRange left.colDisp r c (cv.dispCol.get i)
  · obtain ⟨p3, p4⟩ := p2 hin
    by_cases hw : WindowInside left.img.h left.img.w o (r : K) (c : K)
    · rw [(p4 hw).valid_iff]
      constructor
      · intro h
        refine ⟨hin, hw, h .leftNodata, h .invalidityMaskLeft, not_not.1 (h .rightDisparityOutside), fun y' x' e1 e2 => ⟨?_, ?_⟩⟩
        · exact fun q => h .rightNodata ⟨y', x', e1, e2, q⟩
        · exact fun q => h .invalidityMaskRight ⟨y', x', e1, e2, q⟩
      · rintro ⟨-, -, h1, h2, h3, h4⟩ f
        cases f <;> simp only [Announced, not_false_eq_true, not_not]
        · exact h1
        · rintro ⟨y', x', e1, e2, q⟩; exact (h4 y' x' e1 e2).1 q
        · exact h3
        · exact h2
        · rintro ⟨y', x', e1, e2, q⟩; exact (h4 y' x' e1 e2).2 q
    · constructor
      · intro h; exact absurd (h ▸ (p3 hw).symm) (nz _)
      · rintro ⟨-, h, -⟩; exact absurd h hw
  · constructor
    · intro h; exact absurd (h ▸ (p1 hin).symm) (nz _)
    · rintro ⟨h, -⟩; exact absurd h hin

/-- Error branch of C24: with a left mask, criteria which have not one point per pixel of the image raise `IndexError`. -/
theorem C24_left_mask_with_step_raises (left : Left K) (right : Img K) (ws o : Nat) (cv : CostVolumes K)
    (hm : left.img.msk.isSome = true) (hne : left.img.h ≠ cv.row.n ∨ left.img.w ≠ cv.col.n) :
    getCriteria left right ws o cv = .error .indexError := by
  unfold getCriteria leftMasks
  rw [if_pos hm]
  unfold maskLeftNoData orMask
  rw [if_neg (by rintro ⟨a, b⟩; rcases hne with h | h; exact h a; exact h b)]
  rfl

/-- C24 for the cost volumes produced by the matching cost step (step one; subpixel factor one when the right image has a
mask), whatever the margins and the region of interest. -/
theorem C24_after_matching_cost_partial {z : Zoom K} {pc : Pandora.Cost K} {cfg : Cfg} {roi : Option Roi} {left : Left K}
    {right : Img K} {margins : Option Margins} {cv : CostVolumes K} (hp : PairOk left right) (hs : 0 < cfg.subpix)
    (h1 : cfg.stepRow = 1) (h2 : cfg.stepCol = 1) (hsub : right.msk.isSome = true → cfg.subpix = 1)
    (h : computeCostVolumes z pc cfg roi left right margins = .ok cv) (o : Nat) :
    FullCoords cv.row cv.col left.img.row0 left.img.col0 left.img.h left.img.w ∧
    (right.msk.isSome = true → cv.subpixel = 1 ∧ (∀ j < cv.dispRow.n, ∃ k : Int, cv.dispRow.get j = k) ∧
      (∀ i < cv.dispCol.n, ∃ k : Int, cv.dispCol.get i = k)) ∧
    ∃ y, getCriteria left right (2 * o + 1) o cv = .ok y := by
  obtain ⟨e1, e2, e3, e4, -, e6, -, -⟩ := compute_char hp hs (by omega) h
  have hfc : FullCoords cv.row cv.col left.img.row0 left.img.col0 left.img.h left.img.w := by
    rw [e1, e2, rowCoords_eq, colCoords_eq, h1, h2]
    exact ⟨⟨(coords_step_one _ _ _).1, fun k _ => (coords_step_one _ _ _).2 k⟩,
      ⟨(coords_step_one _ _ _).1, fun k _ => (coords_step_one _ _ _).2 k⟩⟩
  have hint : right.msk.isSome = true → cv.subpixel = 1 ∧ (∀ j < cv.dispRow.n, ∃ k : Int, cv.dispRow.get j = k) ∧
      (∀ i < cv.dispCol.n, ∃ k : Int, cv.dispCol.get i = k) := by
    intro hm
    have hs1 := hsub hm
    refine ⟨by rw [e6]; exact hs1, ?_, ?_⟩
    · intro j hj
      have := axisRow_spec hp margins hs
      rw [← e4] at this
      obtain ⟨k, hk⟩ := axis_multiple hs this hj
      rw [hs1, Nat.cast_one, mul_one] at hk
      exact ⟨k, hk⟩
    · intro j hj
      have := axisCol_spec hp margins hs
      rw [← e3] at this
      obtain ⟨k, hk⟩ := axis_multiple hs this hj
      rw [hs1, Nat.cast_one, mul_one] at hk
      exact ⟨k, hk⟩
  refine ⟨hfc, hint, ?_⟩
  obtain ⟨y, e, -⟩ := C24_cells_exact_partial left right o cv hp hfc hint
  exact ⟨y, e⟩

/-- Test: 5 x 3 pair with a right mask (no-data at (4, 1), invalid at (0, 2)), disparities row -1..2 and column -1..1,
window of one pixel. -/
example : ((computeCostVolumes zoomLinear exCost ⟨1, 1, 1, .min⟩ none exLeft
    { exRightImg with msk := some fun r c => if r = 4 ∧ c = 1 then 1 else if r = 0 ∧ c = 2 then 7 else 0 } none).toOption.bind
      fun cv => (getCriteria exLeft { exRightImg with
        msk := some fun r c => if r = 4 ∧ c = 1 then 1 else if r = 0 ∧ c = 2 then 7 else 0 } 1 0 cv).toOption.map fun y =>
      (cv.dispRow.n, cv.dispCol.n, (List.range 5).map fun r => (List.range 3).map fun c => y.data r c 1 1)) =
    some (4, 3, [[0, 0, 32], [0, 0, 0], [0, 0, 0], [0, 0, 0], [0, 4, 0]]) := by decide +kernel

end Verif.Props
