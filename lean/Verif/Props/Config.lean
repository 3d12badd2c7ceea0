import Verif.Lemmas.Json
import Verif.Spec.Config
import Mathlib.Tactic.Linarith
import Mathlib.Algebra.Order.Ring.Rat

/-!
# Properties C34 to C38: configuration
-/

namespace Verif.Props

open Verif Verif.Config Verif.Spec

/-! ## Schemas -/

theorem dictOpt_iff (l o : List (String × Schema)) (f : Fields) : dictOpt l o (.obj f) = true ↔
    (∀ k ∈ f.keys, k ∈ l.map Prod.fst ∨ k ∈ o.map Prod.fst) ∧ (∀ p ∈ l, ∃ v, f.get p.1 = some v ∧ p.2 v = true) ∧
    (∀ p ∈ o, ∀ v, f.get p.1 = some v → p.2 v = true) := by
  simp only [dictOpt, Bool.and_eq_true, List.all_eq_true, decide_eq_true_eq, and_assoc]
  refine and_congr_right fun _ => and_congr ?_ ?_
  · refine forall_congr' fun p => imp_congr_right fun _ => ?_
    cases f.get p.1 <;> simp
  · refine forall_congr' fun p => imp_congr_right fun _ => ?_
    cases f.get p.1 <;> simp

theorem dictOf_iff (l : List (String × Schema)) (f : Fields) : dictOf l (.obj f) = true ↔
    (∀ k ∈ f.keys, k ∈ l.map Prod.fst) ∧ (∀ p ∈ l, ∃ v, f.get p.1 = some v ∧ p.2 v = true) := by
  unfold dictOf
  rw [dictOpt_iff]
  simp

theorem dictOf_obj {l : List (String × Schema)} {v : J} (h : dictOf l v = true) : ∃ f, v = .obj f := by
  cases v with
  | obj f => exact ⟨f, rfl⟩
  | _ => simp [dictOf, dictOpt] at h

theorem intVal_iff (bi : Bool) (v : J) (i : Int) : intVal bi v = some i ↔ IsInt bi v i := by
  unfold IsInt
  cases v with
  | int j => simp [intVal]
  | bool b => cases b <;> cases bi <;> simp [intVal, eq_comm]
  | _ => simp [intVal]

theorem intAnd_iff (bi : Bool) (p : Int → Bool) (v : J) : intAnd bi p v = true ↔ ∃ i, IsInt bi v i ∧ p i = true := by
  unfold intAnd
  constructor
  · intro h
    cases hv : intVal bi v with
    | none => rw [hv] at h; simp at h
    | some i => rw [hv] at h; exact ⟨i, (intVal_iff bi v i).1 hv, h⟩
  · rintro ⟨i, h, hp⟩
    rw [(intVal_iff bi v i).2 h]
    exact hp

theorem pyInt_of {bi : Bool} {v : J} {i : Int} (h : IsInt bi v i) : pyInt v = i := by
  unfold pyInt
  rcases h with rfl | ⟨-, ⟨rfl, rfl⟩ | ⟨rfl, rfl⟩⟩ <;> rfl

theorem isIntPy_iff (v : J) : isIntPy v = true ↔ ∃ i, IsInt true v i := by
  unfold IsInt
  cases v with
  | int j => simp [isIntPy]
  | bool b => cases b <;> simp [isIntPy]
  | _ => simp [isIntPy]

/-! ## C34 -/

/-- For a constant disparity, a candidate exists exactly when `|init| - range` is less than the size. -/
theorem hasCandidate_iff (n : Nat) (hn : 0 < n) (init range : Int) (hr : 0 ≤ range) :
    HasCandidate n (init - range) (init + range) ↔ |init| - range < n := by
  unfold HasCandidate
  constructor
  · rintro ⟨x, d, h1, h2, h3, h4, h5, h6⟩
    rcases abs_cases init with ⟨e, -⟩ | ⟨e, -⟩ <;> rw [e] <;> omega
  · intro h
    rcases abs_cases init with ⟨e, h0⟩ | ⟨e, h0⟩ <;> rw [e] at h
    · by_cases hc : init - range ≤ 0
      · exact ⟨0, 0, by omega, by omega, by omega, by omega, by omega, by omega⟩
      · exact ⟨0, init - range, by omega, by omega, by omega, by omega, by omega, by omega⟩
    · by_cases hc : 0 ≤ init + range
      · exact ⟨0, 0, by omega, by omega, by omega, by omega, by omega, by omega⟩
      · exact ⟨n - 1, init + range, by omega, by omega, by omega, by omega, by omega, by omega⟩

theorem checkRanges_int (size : Nat × Nat) (ri rr ci cr : Int) :
    checkRanges size (some (ri : Rat)) rr (some (ci : Rat)) cr = .ok () ↔
      |ri| - rr ≤ size.1 ∧ |ci| - cr ≤ size.2 := by
  have key : ∀ (i r : Int) (n : Nat), (|(i : Rat)| - (r : Rat) > (n : Rat)) ↔ ¬ (|i| - r ≤ (n : Int)) := by
    intro i r n
    rw [gt_iff_lt, not_le]
    constructor
    · intro h
      have : (((n : Int)) : Rat) < ((|i| - r : Int) : Rat) := by push_cast; exact h
      exact_mod_cast this
    · intro h
      have : (((n : Int)) : Rat) < ((|i| - r : Int) : Rat) := by exact_mod_cast h
      push_cast at this
      exact this
  unfold checkRanges
  simp only [decide_eq_true_eq, key]
  by_cases h1 : |ri| - rr ≤ size.1 <;> by_cases h2 : |ci| - cr ≤ size.2 <;> simp [h1, h2]

/-- C34, full statement for constant disparities. -/
def C34Statement : Prop :=
  ∀ (size : Nat × Nat) (ri rr ci cr : Int), 0 < size.1 → 0 < size.2 → 0 ≤ rr → 0 ≤ cr →
    (checkRanges size (some (ri : Rat)) rr (some (ci : Rat)) cr = .ok () ↔
      HasCandidate size.1 (ri - rr) (ri + rr) ∧ HasCandidate size.2 (ci - cr) (ci + cr))

/-- C34 is false of the code: `|init| - range` equal to the size is accepted although every candidate is outside. -/
theorem C34_false_at_size : ¬ C34Statement := by
  intro h
  have h1 := (h (10, 10) 10 0 0 0 (by decide) (by decide) (by decide) (by decide)).1
    ((checkRanges_int _ _ _ _ _).2 ⟨by decide, by decide⟩)
  rw [hasCandidate_iff _ (by decide) _ _ (by decide)] at h1
  exact absurd h1.1 (by decide)

/-- C34 (partial): a rejected pair of constant disparities has no candidate inside the image in one of the directions, and
apart from the equality `|init| - range = size` an accepted pair has candidates in both. Missing: the equality, where the
statement is false, and the grids (`C34_grid_outlier`). -/
theorem C34_constant_partial (size : Nat × Nat) (ri rr ci cr : Int) (h1 : 0 < size.1) (h2 : 0 < size.2) (hr : 0 ≤ rr)
    (hc : 0 ≤ cr) :
    (checkRanges size (some (ri : Rat)) rr (some (ci : Rat)) cr ≠ .ok () →
      ¬ HasCandidate size.1 (ri - rr) (ri + rr) ∨ ¬ HasCandidate size.2 (ci - cr) (ci + cr)) ∧
    (|ri| - rr ≠ size.1 → |ci| - cr ≠ size.2 →
      (checkRanges size (some (ri : Rat)) rr (some (ci : Rat)) cr = .ok () ↔
        HasCandidate size.1 (ri - rr) (ri + rr) ∧ HasCandidate size.2 (ci - cr) (ci + cr))) := by
  rw [hasCandidate_iff _ h1 _ _ hr, hasCandidate_iff _ h2 _ _ hc, ne_eq, checkRanges_int]
  constructor
  · intro h
    by_contra hcon
    push Not at hcon
    exact h ⟨by omega, by omega⟩
  · intro e1 e2
    constructor
    · rintro ⟨a, b⟩; exact ⟨by omega, by omega⟩
    · rintro ⟨a, b⟩; exact ⟨by omega, by omega⟩

/-- Test: accepted and rejected ranges. -/
example : checkRanges (10, 10) (some ((12 : Int) : Rat)) 4 (some ((-3 : Int) : Rat)) 1 = .ok () :=
  (checkRanges_int _ _ _ _ _).2 ⟨by decide, by decide⟩
example : checkRanges (10, 10) (some ((16 : Int) : Rat)) 4 (some ((-3 : Int) : Rat)) 1 ≠ .ok () := by
  rw [ne_eq, checkRanges_int]; decide

/-- Maximum of the absolute values of a grid (`np.max(np.abs(grid))`). -/
def maxAbs (g : List Int) : Int := (g.map abs).foldl max 0

/-- C34 is false of grids: one pixel far outside is enough to reject the grid, although the other pixels have candidates inside
the image. Any grid, any number of other pixels. -/
theorem C34_grid_outlier (size : Nat × Nat) (g : List Int) (range : Int) (out : Int) (h : out ∈ g)
    (ho : |out| - range > size.1) (ci cr : Int) :
    checkRanges size (some (maxAbs g : Rat)) range (some (ci : Rat)) cr = .error .valueError := by
  have hm : ∀ (l : List Int) (a : Int), a ≤ l.foldl max a ∧ ∀ x ∈ l, x ≤ l.foldl max a := by
    intro l
    induction l with
    | nil => intro a; simp
    | cons y l ih =>
      intro a
      obtain ⟨i1, i2⟩ := ih (max a y)
      refine ⟨le_trans (le_max_left a y) i1, fun x hx => ?_⟩
      rcases List.mem_cons.1 hx with rfl | hx
      · exact le_trans (le_max_right a x) i1
      · exact i2 x hx
  have h1 : |out| ≤ maxAbs g := (hm _ 0).2 _ (List.mem_map_of_mem h)
  have h0 : 0 ≤ maxAbs g := (hm _ 0).1
  have hgt : |(maxAbs g : Rat)| - (range : Rat) > (size.1 : Rat) := by
    have : |maxAbs g| - range > size.1 := by rw [abs_of_nonneg h0]; omega
    have h' : ((size.1 : Int) : Rat) < ((|maxAbs g| - range : Int) : Rat) := by exact_mod_cast this
    push_cast at h'
    exact h'
  unfold checkRanges
  simp only [decide_eq_true_eq]
  rw [if_pos hgt]

/-- Test: a grid of which three pixels out of four are at disparity 0. -/
example : (30 : Int) ∈ [0, 0, 30, 0] ∧ |(30 : Int)| - 2 > ((10, 10) : Nat × Nat).1 ∧ HasCandidate 10 (0 - 2) (0 + 2) :=
  ⟨by decide, by decide, 0, 0, by decide⟩

/-! ## C36 -/

theorem isInt_convAll {bi : Bool} {v : J} {i : Int} : IsInt bi v.convAll i ↔ IsInt bi v i := by
  unfold IsInt
  constructor
  · rintro (h | ⟨hb, ⟨h, h'⟩ | ⟨h, h'⟩⟩)
    · exact Or.inl (convAll_eq_int h)
    · exact Or.inr ⟨hb, Or.inl ⟨convAll_eq_bool h, h'⟩⟩
    · exact Or.inr ⟨hb, Or.inr ⟨convAll_eq_bool h, h'⟩⟩
  · rintro (rfl | ⟨hb, ⟨rfl, h'⟩ | ⟨rfl, h'⟩⟩)
    · exact Or.inl rfl
    · exact Or.inr ⟨hb, Or.inl ⟨rfl, h'⟩⟩
    · exact Or.inr ⟨hb, Or.inr ⟨rfl, h'⟩⟩

theorem convAll_of_isInt {bi : Bool} {v : J} {i : Int} (h : IsInt bi v i) : v.convAll = v := by
  rcases h with rfl | ⟨-, ⟨rfl, -⟩ | ⟨rfl, -⟩⟩ <;> rfl

theorem roiDirection_convAll {bi : Bool} {v : J} : RoiDirection bi v.convAll ↔ RoiDirection bi v := by
  constructor
  · rintro ⟨f, a, b, i, j, hv, hk, ha, hb, hi, hj, h0, hij⟩
    obtain ⟨g, rfl, rfl⟩ := convAll_eq_obj hv
    rw [Fields.get_convAll, Option.map_eq_some_iff] at ha hb
    obtain ⟨a', ha', rfl⟩ := ha
    obtain ⟨b', hb', rfl⟩ := hb
    rw [Fields.keys_convAll] at hk
    exact ⟨g, a', b', i, j, rfl, hk, ha', hb', isInt_convAll.1 hi, isInt_convAll.1 hj, h0, hij⟩
  · rintro ⟨f, a, b, i, j, rfl, hk, ha, hb, hi, hj, h0, hij⟩
    refine ⟨f.convAll, a.convAll, b.convAll, i, j, rfl, by rw [Fields.keys_convAll]; exact hk, ?_, ?_, isInt_convAll.2 hi,
      isInt_convAll.2 hj, h0, hij⟩
    · rw [Fields.get_convAll, ha]; rfl
    · rw [Fields.get_convAll, hb]; rfl

theorem roiOk_convAll {bi : Bool} {v : J} : RoiOk bi v.convAll ↔ RoiOk bi v := by
  constructor
  · rintro ⟨f, r, c, hv, hk, hr, hc, h1, h2⟩
    obtain ⟨g, rfl, rfl⟩ := convAll_eq_obj hv
    rw [Fields.get_convAll, Option.map_eq_some_iff] at hr hc
    obtain ⟨r', hr', rfl⟩ := hr
    obtain ⟨c', hc', rfl⟩ := hc
    rw [Fields.keys_convAll] at hk
    exact ⟨g, r', c', rfl, hk, hr', hc', roiDirection_convAll.1 h1, roiDirection_convAll.1 h2⟩
  · rintro ⟨f, r, c, rfl, hk, hr, hc, h1, h2⟩
    refine ⟨f.convAll, r.convAll, c.convAll, rfl, by rw [Fields.keys_convAll]; exact hk, ?_, ?_, roiDirection_convAll.2 h1,
      roiDirection_convAll.2 h2⟩
    · rw [Fields.get_convAll, hr]; rfl
    · rw [Fields.get_convAll, hc]; rfl

theorem roiDirection_unchanged {bi : Bool} {v : J} (hw : v.wf) (h : RoiDirection bi v) : v.convAll = v := by
  obtain ⟨f, a, b, i, j, rfl, hk, ha, hb, hi, hj, -⟩ := h
  have hf : f.wf := by simpa [J.wf] using hw
  simp only [J.convAll, J.obj.injEq]
  apply Fields.ext_keys
  · exact Fields.keys_convAll f
  · rw [Fields.keys_convAll]; exact Fields.wf_keys f hf
  · intro k
    rw [Fields.get_convAll]
    by_cases hk' : k ∈ f.keys
    · rcases (hk k).1 hk' with rfl | rfl
      · rw [ha, Option.map_some, convAll_of_isInt hi]
      · rw [hb, Option.map_some, convAll_of_isInt hj]
    · rw [(Fields.get_eq_none f k).2 hk']; rfl

theorem roiOk_unchanged {bi : Bool} {v : J} (hw : v.wf) (h : RoiOk bi v) : v.convAll = v := by
  obtain ⟨f, r, c, rfl, hk, hr, hc, h1, h2⟩ := h
  have hf : f.wf := by simpa [J.wf] using hw
  simp only [J.convAll, J.obj.injEq]
  apply Fields.ext_keys
  · exact Fields.keys_convAll f
  · rw [Fields.keys_convAll]; exact Fields.wf_keys f hf
  · intro k
    rw [Fields.get_convAll]
    by_cases hk' : k ∈ f.keys
    · rcases (hk k).1 hk' with rfl | rfl
      · rw [hr, Option.map_some, roiDirection_unchanged (Fields.wf_get f hf hr) h1]
      · rw [hc, Option.map_some, roiDirection_unchanged (Fields.wf_get f hf hc) h2]
    · rw [(Fields.get_eq_none f k).2 hk']; rfl

/-- The schema of one direction followed by the coherence test. -/
theorem roiDirection_iff (bi : Bool) (v : J) :
    (dictOf [("first", intAnd bi fun x => decide (0 ≤ x)), ("last", intAnd bi fun x => decide (0 ≤ x))] v = true ∧
      checkRoiCoherence v = .ok ()) ↔ RoiDirection bi v := by
  constructor
  · rintro ⟨h, hc⟩
    obtain ⟨f, rfl⟩ := dictOf_obj h
    rw [dictOf_iff] at h
    obtain ⟨h1, h2⟩ := h
    obtain ⟨a, ha, hai⟩ := h2 _ (List.mem_cons_self)
    obtain ⟨b, hb, hbi⟩ := h2 _ (List.mem_cons_of_mem _ List.mem_cons_self)
    simp only at ha hb hai hbi
    rw [intAnd_iff] at hai hbi
    obtain ⟨i, hi, hi0⟩ := hai
    obtain ⟨j, hj, hj0⟩ := hbi
    simp only [decide_eq_true_eq] at hi0 hj0
    refine ⟨f, a, b, i, j, rfl, ?_, ha, hb, hi, hj, hi0, ?_⟩
    · intro k
      constructor
      · intro hk; simpa using h1 k hk
      · rintro (rfl | rfl)
        · exact Fields.mem_of_get ha
        · exact Fields.mem_of_get hb
    · simp only [checkRoiCoherence, item, ha, hb, bind, Except.bind, pyInt_of hi, pyInt_of hj] at hc
      by_contra hcon
      rw [if_pos (by omega)] at hc
      simp at hc
  · rintro ⟨f, a, b, i, j, rfl, hk, ha, hb, hi, hj, h0, hij⟩
    refine ⟨?_, ?_⟩
    · rw [dictOf_iff]
      refine ⟨fun k h => by simpa using (hk k).1 h, ?_⟩
      intro p hp
      simp only [List.mem_cons, List.not_mem_nil, or_false] at hp
      rcases hp with rfl | rfl
      · exact ⟨a, ha, (intAnd_iff _ _ _).2 ⟨i, hi, by simpa using h0⟩⟩
      · exact ⟨b, hb, (intAnd_iff _ _ _).2 ⟨j, hj, by simp; omega⟩⟩
    · simp only [checkRoiCoherence, item, ha, hb, bind, Except.bind, pyInt_of hi, pyInt_of hj]
      rw [if_neg (by omega)]

theorem checkRoi_tail_iff (bi : Bool) (v : J) :
    (∃ out, (if dictOf [("ROI", roiSchema bi)] (.obj (.cons "ROI" v .nil)) then
      (match (Fields.cons "ROI" v .nil).get "ROI" with
      | some (.obj roi) => (do
        let c ← item roi "col"
        checkRoiCoherence c
        let r ← item roi "row"
        checkRoiCoherence r
        .ok (Fields.cons "ROI" v .nil) : Except Err Fields)
      | _ => .error .typeError)
      else .error .checker) = .ok out ∧ out = .cons "ROI" v .nil) ↔ RoiOk bi v := by
  constructor
  · rintro ⟨out, h, rfl⟩
    split_ifs at h with hs
    rw [dictOf_iff] at hs
    obtain ⟨v', hv', hsch⟩ := hs.2 _ List.mem_cons_self
    simp only [Fields.get, if_true, Option.some.injEq] at hv'
    subst hv'
    simp only [roiSchema] at hsch
    obtain ⟨f, rfl⟩ := dictOf_obj hsch
    rw [dictOf_iff] at hsch
    obtain ⟨h1, h2⟩ := hsch
    obtain ⟨r, hr, hrs⟩ := h2 _ List.mem_cons_self
    obtain ⟨c, hc, hcs⟩ := h2 _ (List.mem_cons_of_mem _ List.mem_cons_self)
    simp only at hr hc hrs hcs
    simp only [Fields.get, if_true, item, hr, hc, bind, Except.bind] at h
    refine ⟨f, r, c, rfl, ?_, hr, hc, (roiDirection_iff bi r).1 ⟨hrs, ?_⟩, (roiDirection_iff bi c).1 ⟨hcs, ?_⟩⟩
    · intro k
      constructor
      · intro hk; simpa using h1 k hk
      · rintro (rfl | rfl)
        · exact Fields.mem_of_get hr
        · exact Fields.mem_of_get hc
    · cases h3 : checkRoiCoherence c with
      | error e => rw [h3] at h; simp at h
      | ok u =>
        rw [h3] at h
        cases h4 : checkRoiCoherence r with
        | error e => rw [h4] at h; simp at h
        | ok u => rfl
    · cases h3 : checkRoiCoherence c with
      | error e => rw [h3] at h; simp at h
      | ok u => rfl
  · rintro ⟨f, r, c, rfl, hk, hr, hc, h1, h2⟩
    obtain ⟨s1, c1⟩ := (roiDirection_iff bi r).2 h1
    obtain ⟨s2, c2⟩ := (roiDirection_iff bi c).2 h2
    refine ⟨_, ?_, rfl⟩
    rw [if_pos]
    · simp only [Fields.get, if_true, item, hr, hc, bind, Except.bind, c1, c2]
    · rw [dictOf_iff]
      refine ⟨fun k h => by simpa [Fields.keys] using h, ?_⟩
      intro p hp
      simp only [List.mem_cons, List.not_mem_nil, or_false] at hp
      subst hp
      refine ⟨.obj f, by simp [Fields.get], ?_⟩
      simp only [roiSchema]
      rw [dictOf_iff]
      refine ⟨fun k h => by simpa using (hk k).1 h, ?_⟩
      intro p hp
      simp only [List.mem_cons, List.not_mem_nil, or_false] at hp
      rcases hp with rfl | rfl
      · exact ⟨r, hr, s1⟩
      · exact ⟨c, hc, s2⟩

theorem checkRoiSection_eq (bi : Bool) (v : J) (hw : v.wf) : checkRoiSection bi (.cons "ROI" v .nil) =
    (if dictOf [("ROI", roiSchema bi)] (.obj (.cons "ROI" v.convAll .nil)) then
      (match (Fields.cons "ROI" v.convAll .nil).get "ROI" with
      | some (.obj roi) => (do
        let c ← item roi "col"
        checkRoiCoherence c
        let r ← item roi "row"
        checkRoiCoherence r
        .ok (Fields.cons "ROI" v.convAll .nil) : Except Err Fields)
      | _ => .error .typeError)
      else .error .checker) := by
  unfold checkRoiSection
  rw [if_neg (by simp), updateConf_nil _ (by simp [Fields.wf, Fields.keys, hw])]
  rfl

/-- C36: a ROI section is accepted exactly when the ROI has the two directions with `first` and `last`, non-negative integers,
`first ≤ last`, and nothing else; it is then returned unchanged. Any value in place of the ROI. -/
theorem C36_accepted_iff (bi : Bool) (v : J) (hw : v.wf) :
    ((∃ out, checkRoiSection bi (.cons "ROI" v .nil) = .ok out) ↔ RoiOk bi v) ∧
    (∀ out, checkRoiSection bi (.cons "ROI" v .nil) = .ok out → out = .cons "ROI" v .nil) := by
  rw [checkRoiSection_eq bi v hw]
  have key := checkRoi_tail_iff bi v.convAll
  have same : ∀ out, (if dictOf [("ROI", roiSchema bi)] (.obj (.cons "ROI" v.convAll .nil)) then
      (match (Fields.cons "ROI" v.convAll .nil).get "ROI" with
      | some (.obj roi) => (do
        let c ← item roi "col"
        checkRoiCoherence c
        let r ← item roi "row"
        checkRoiCoherence r
        .ok (Fields.cons "ROI" v.convAll .nil) : Except Err Fields)
      | _ => .error .typeError)
      else .error .checker) = .ok out → out = .cons "ROI" v.convAll .nil := by
    intro out h
    split_ifs at h
    split at h
    · rename_i roi hroi
      cases h1 : item roi "col" with
      | error e => rw [h1] at h; simp [bind, Except.bind] at h
      | ok c =>
        cases h2 : checkRoiCoherence c with
        | error e => rw [h1] at h; simp [bind, Except.bind, h2] at h
        | ok u =>
          cases h3 : item roi "row" with
          | error e => rw [h1] at h; simp [bind, Except.bind, h2, h3] at h
          | ok r =>
            cases h4 : checkRoiCoherence r with
            | error e => rw [h1] at h; simp [bind, Except.bind, h2, h3, h4] at h
            | ok u =>
              rw [h1] at h
              simp only [bind, Except.bind, h2, h3, h4, Except.ok.injEq] at h
              exact h.symm
    · simp at h
  have hiff : (∃ out, (if dictOf [("ROI", roiSchema bi)] (.obj (.cons "ROI" v.convAll .nil)) then
      (match (Fields.cons "ROI" v.convAll .nil).get "ROI" with
      | some (.obj roi) => (do
        let c ← item roi "col"
        checkRoiCoherence c
        let r ← item roi "row"
        checkRoiCoherence r
        .ok (Fields.cons "ROI" v.convAll .nil) : Except Err Fields)
      | _ => .error .typeError)
      else .error .checker) = .ok out) ↔ RoiOk bi v := by
    rw [← roiOk_convAll, ← key]
    constructor
    · rintro ⟨out, h⟩
      exact ⟨out, h, same out h⟩
    · rintro ⟨out, h, -⟩
      exact ⟨out, h⟩
  refine ⟨hiff, fun out h => ?_⟩
  rw [same out h, roiOk_unchanged hw (hiff.1 ⟨out, h⟩)]

/-- Without ROI, nothing is checked. -/
theorem C36_no_roi (bi : Bool) : checkRoiSection bi .nil = .ok .nil := by simp [checkRoiSection]

/-- A dictionary from a list, for the tests. -/
def mk : List (String × J) → Fields
  | [] => .nil
  | (k, v) :: l => .cons k v (mk l)

/-- Test: a correct ROI, and one with `first > last`. -/
example : RoiOk false (.obj (mk [("col", .obj (mk [("first", .int 3), ("last", .int 7)])),
    ("row", .obj (mk [("first", .int 0), ("last", .int 0)]))])) := by
  refine ⟨_, _, _, rfl, by intro k; simp [mk, Fields.keys, or_comm], rfl, rfl, ?_, ?_⟩
  · exact ⟨_, _, _, _, _, rfl, by intro k; simp [mk, Fields.keys], rfl, rfl, Or.inl rfl, Or.inl rfl, by decide, by decide⟩
  · exact ⟨_, _, _, _, _, rfl, by intro k; simp [mk, Fields.keys], rfl, rfl, Or.inl rfl, Or.inl rfl, by decide, by decide⟩
example : checkRoiSection false (mk [("ROI", .obj (mk [("col", .obj (mk [("first", .int 8), ("last", .int 7)])),
    ("row", .obj (mk [("first", .int 0), ("last", .int 0)]))]))]) = .error .valueError := by decide

/-! ## C35 -/

theorem bind_eq_ok {α β : Type} {a : Except Err α} {f : α → Except Err β} {b : β} (h : (a >>= f) = .ok b) :
    ∃ x, a = .ok x ∧ f x = .ok b := by
  cases a with
  | error e => exact absurd h (by simp [bind, Except.bind])
  | ok x => exact ⟨x, rfl, h⟩

theorem item_ok {f : Fields} {k : String} {v : J} (h : item f k = .ok v) : f.get k = some v := by
  unfold item at h
  split at h
  · rename_i w hw
    rw [hw, Except.ok.inj h]
  · simp at h

/-- What `check_disparity` accepts. -/
theorem checkDisparity_ok (env : Env) (size : Nat × Nat) (input : Fields) (h : checkDisparity env size input = .ok ()) :
    ∃ row col ri ci, input.get "row_disparity" = some (.obj row) ∧ input.get "col_disparity" = some (.obj col) ∧
      row.get "init" = some ri ∧ col.get "init" = some ci ∧ SameKind ri ci := by
  unfold checkDisparity at h
  obtain ⟨r, hr, h⟩ := bind_eq_ok h
  cases r with
  | obj row =>
    simp only at h
    obtain ⟨c, hc, h⟩ := bind_eq_ok h
    cases c with
    | obj col =>
      simp only at h
      obtain ⟨ri, hri, h⟩ := bind_eq_ok h
      obtain ⟨ci, hci, h⟩ := bind_eq_ok h
      refine ⟨row, col, ri, ci, item_ok hr, item_ok hc, item_ok hri, item_ok hci, ?_⟩
      split at h
      · exact Or.inl ⟨_, _, rfl, rfl⟩
      · split_ifs at h with hb
        · rw [Bool.and_eq_true, isIntPy_iff, isIntPy_iff] at hb
          obtain ⟨⟨i, hi⟩, ⟨j, hj⟩⟩ := hb
          exact Or.inr ⟨i, j, hi, hj⟩
    | _ => simp at h
  | _ => simp at h

/-- The values of the `input` section of the completed configuration. -/
theorem input_section_get {user cfg : Fields} (hw : user.wf) (h : updateConf defaultInput user = .ok cfg) {cf : Fields}
    (hcf : cfg.get "input" = some (.obj cf)) (hu : (user.get "input").isSome = true) :
    ∃ uf : Fields, user.get "input" = some (.obj uf) ∧ uf.wf ∧ ∀ k, k ≠ "left" → k ≠ "right" →
      cf.get k = (uf.get k).map J.convAll := by
  obtain ⟨w, hwi⟩ := Option.isSome_iff_exists.1 hu
  obtain ⟨w', h1, h2⟩ := (updateConf_get user defaultInput cfg (Fields.wf_keys user hw) h "input").2 w hwi
  rw [hcf, Option.some.injEq] at h2
  subst h2
  by_cases hl : w.isLeaf = true
  · rw [updateVal_leaf _ hl, Except.ok.injEq] at h1
    have := conv_leaf hl
    rw [h1] at this
    simp [J.isLeaf] at this
  · cases w with
    | obj uf =>
      have huf : uf.wf := Fields.wf_get user hw hwi
      refine ⟨uf, hwi, huf, fun k hk1 hk2 => ?_⟩
      have hdef : defaultInput.get "input" = some (.obj (mk [("left", .obj (mk [("nodata", .int (-9999)), ("mask", .null)])),
        ("right", .obj (mk [("nodata", .int (-9999)), ("mask", .null)]))])) := rfl
      rw [hdef] at h1
      simp only [updateVal] at h1
      generalize hdf : mk [("left", .obj (mk [("nodata", .int (-9999)), ("mask", .null)])),
        ("right", .obj (mk [("nodata", .int (-9999)), ("mask", .null)]))] = df at h1
      cases hup : updateConf df uf with
      | error e => rw [hup] at h1; simp [Except.map] at h1
      | ok g =>
        rw [hup] at h1
        simp only [Except.map, Except.ok.injEq, J.obj.injEq] at h1
        subst h1
        have hdk : df.get k = none := by
          rw [← hdf]
          simp only [mk, Fields.get]
          rw [if_neg (fun e => hk1 e.symm), if_neg (fun e => hk2 e.symm)]
        obtain ⟨i1, i2⟩ := updateConf_get uf df g (Fields.wf_keys uf huf) hup k
        cases hk : uf.get k with
        | none => rw [i1 hk, hdk]; rfl
        | some x =>
          obtain ⟨v', a, b⟩ := i2 x hk
          rw [hdk, updateVal_none x (Fields.wf_get uf huf hk), Except.ok.injEq] at a
          rw [b, ← a]; rfl
    | _ => exact absurd rfl hl

/-- C35 (partial, without estimation): an accepted input section gives both disparities, as two dictionaries whose initial
values are two paths or two integers. Missing: with an estimation step the given disparities are accepted and ignored
(`C35_false_with_estimation`). -/
theorem C35_pairs_partial (env : Env) (user cfg : Fields) (hw : user.wf) (h : checkInputSection env user false = .ok cfg) :
    ∃ ri ci, (J.obj user).at ["input", "row_disparity", "init"] = some ri ∧
      (J.obj user).at ["input", "col_disparity", "init"] = some ci ∧ SameKind ri ci := by
  unfold checkInputSection at h
  cases hin : user.get "input" with
  | none => rw [hin] at h; simp at h
  | some w0 =>
    rw [hin] at h
    simp only at h
    cases hup : updateConf defaultInput user with
    | error e => rw [hup] at h; simp at h
    | ok c =>
      rw [hup] at h
      simp only [Bool.false_eq_true, if_false] at h
      cases hval : validateInput env false c with
      | error e => rw [hval] at h; simp at h
      | ok u =>
        rw [hval] at h
        simp only [Except.ok.injEq] at h
        subst h
        unfold validateInput at hval
        simp only [Bool.false_eq_true, if_false] at hval
        split_ifs at hval with hs
        split at hval
        · rename_i cf hcf
          split at hval
          · simp at hval
          · split at hval
            · simp at hval
            · · obtain ⟨row, col, ri, ci, h1, h2, h3, h4, h5⟩ := checkDisparity_ok env _ cf hval
                obtain ⟨uf, e1, huf, e2⟩ := input_section_get hw hup hcf (by rw [hin]; rfl)
                rw [e2 _ (by decide) (by decide), Option.map_eq_some_iff] at h1 h2
                obtain ⟨r0, hr0, hr1⟩ := h1
                obtain ⟨c0, hc0, hc1⟩ := h2
                obtain ⟨rf, rfl, rfl⟩ := convAll_eq_obj hr1
                obtain ⟨cf', rfl, rfl⟩ := convAll_eq_obj hc1
                rw [Fields.get_convAll, Option.map_eq_some_iff] at h3 h4
                obtain ⟨ri', hri', rfl⟩ := h3
                obtain ⟨ci', hci', rfl⟩ := h4
                refine ⟨ri', ci', ?_, ?_, ?_⟩
                · simp [J.at, e1, hr0, hri']
                · simp [J.at, e1, hc0, hci']
                · rcases h5 with ⟨s, t, hs, ht⟩ | ⟨i, j, hi, hj⟩
                  · exact Or.inl ⟨s, t, convAll_eq_str hs, convAll_eq_str ht⟩
                  · exact Or.inr ⟨i, j, isInt_convAll.1 hi, isInt_convAll.1 hj⟩
        · simp at hval

/-- C35: two dictionaries with initial values of different kinds raise ValueError. -/
theorem C35_mixed_raises (env : Env) (size : Nat × Nat) (input row col : Fields) (ri ci : J)
    (hr : input.get "row_disparity" = some (.obj row)) (hc : input.get "col_disparity" = some (.obj col))
    (hri : row.get "init" = some ri) (hci : col.get "init" = some ci) (hk : ¬ SameKind ri ci) :
    checkDisparity env size input = .error .valueError := by
  unfold checkDisparity
  simp only [item, hr, hc, hri, hci, bind, Except.bind]
  split
  · exact absurd (Or.inl ⟨_, _, rfl, rfl⟩) hk
  · rw [if_neg]
    rw [Bool.and_eq_true, isIntPy_iff, isIntPy_iff]
    rintro ⟨⟨i, hi⟩, ⟨j, hj⟩⟩
    exact hk (Or.inr ⟨i, j, hi, hj⟩)

/-- An environment for the tests: all the files can be opened, the image has 20 rows and 30 columns. -/
def testEnv : Env where
  boolIsInt := false
  canOpen v := isStr v || decide (v = .null)
  canOpenMandatory v := isStr v
  openGrid _ := .ok ⟨1, 20, 30, some 2⟩
  checkImages _ := none
  imageSize _ := .ok (20, 30)

/-- A user's input section with the given disparities. -/
def testInput (row col : J) : Fields :=
  mk [("input", .obj (mk [("left", .obj (mk [("img", .str "left.tif")])),
    ("right", .obj (mk [("img", .str "right.tif"), ("nodata", .str "NaN")])), ("row_disparity", row), ("col_disparity", col)]))]

def testDisp (init : J) : J := .obj (mk [("init", init), ("range", .int 2)])

/-- Tests: two integers and two grids are accepted, an integer and a grid are not. -/
example : (checkInputSection testEnv (testInput (testDisp (.int 1)) (testDisp (.int (-3)))) false).toOption.isSome = true := by
  decide +kernel
example : (checkInputSection testEnv (testInput (testDisp (.str "a")) (testDisp (.str "b"))) false).toOption.isSome = true := by
  decide +kernel
example : checkInputSection testEnv (testInput (testDisp (.int 1)) (testDisp (.str "b"))) false = .error .valueError := by
  decide +kernel

/-- C35, second half: with an estimation no disparity may be given. -/
def C35EstimationStatement : Prop :=
  ∀ (env : Env) (user cfg : Fields), user.wf → checkInputSection env user true = .ok cfg →
    (J.obj user).at ["input", "row_disparity"] = none ∧ (J.obj user).at ["input", "col_disparity"] = none

/-- It is false of the code: the disparities are accepted (and replaced later by those of the estimation). -/
theorem C35_false_with_estimation : ¬ C35EstimationStatement := by
  intro h
  cases hc : checkInputSection testEnv (testInput (testDisp (.int 1)) (testDisp (.int (-3)))) true with
  | error e =>
    have : (checkInputSection testEnv (testInput (testDisp (.int 1)) (testDisp (.int (-3)))) true).toOption.isSome = true := by
      decide +kernel
    rw [hc] at this
    simp [Except.toOption] at this
  | ok cfg =>
    have := (h testEnv _ cfg (by simp [testInput, testDisp, mk, Fields.wf, J.wf, Fields.keys]) hc).1
    revert this
    decide

/-! ## C37 -/

theorem checkInputSection_ok {env : Env} {user cfg : Fields} {est : Bool} (h : checkInputSection env user est = .ok cfg) :
    ∃ c, updateConf defaultInput user = .ok c ∧ (if est then updateConf defaultDisp c = .ok cfg else c = cfg) ∧
      validateInput env est cfg = .ok () ∧ (user.get "input").isSome = true := by
  unfold checkInputSection at h
  split at h
  · simp at h
  · rename_i w hw
    split at h
    · simp at h
    · rename_i c hc
      split at h
      · simp at h
      · rename_i c2 hc2
        split at h
        · simp at h
        · rename_i hv
          have h' := Except.ok.inj h
          subst h'
          refine ⟨c, hc, ?_, hv, by rw [hw]; rfl⟩
          split_ifs at hc2 ⊢
          · exact hc2
          · exact Except.ok.inj hc2

theorem defaultInput_wf : defaultInput.wf := by simp [defaultInput, Fields.wf, J.wf, Fields.keys]

theorem defaultInput_normal : defaultInput.normal := by simp [defaultInput, Fields.normal, J.normal, conv]

theorem conv_eq (v : J) : conv v = readValue v := by
  cases v with
  | str s =>
    unfold conv
    by_cases h1 : s = "NaN"
    · subst h1; rfl
    · by_cases h2 : s = "inf"
      · subst h2; rfl
      · by_cases h3 : s = "-inf"
        · subst h3; rfl
        · simp only [if_neg h1, if_neg h2, if_neg h3]
          unfold readValue
          split <;> simp_all
  | _ => rfl

/-- C37 (partial): every value of the user's input section which is not a dictionary is in the checked section, at the same
place, unchanged except that the strings "NaN", "inf", "-inf" become the corresponding floats. Missing: an empty dictionary in
place of a value, which is replaced by the default (`C37_false_empty_dictionary`). -/
theorem C37_input_values_partial (env : Env) (user cfg : Fields) (est : Bool) (hw : user.wf)
    (h : checkInputSection env user est = .ok cfg) (p : List String) (v : J) (hv : (J.obj user).at p = some v)
    (hl : v.isLeaf = true) : (J.obj cfg).at p = some (readValue v) := by
  rw [← conv_eq]
  obtain ⟨c, h1, h2, -, -⟩ := checkInputSection_ok h
  have hc := updateConf_leaf p user defaultInput c v hw h1 hv hl
  split_ifs at h2 with he
  · have := updateConf_leaf p c defaultDisp cfg (conv v) (updateConf_wf user _ c hw defaultInput_wf h1) h2 hc (conv_leaf hl)
    rw [this, conv_conv]
  · rw [← h2]; exact hc

/-- C37: where the user gives nothing, the checked section has the default (without estimation). -/
theorem C37_input_defaults (env : Env) (user cfg : Fields) (hw : user.wf) (h : checkInputSection env user false = .ok cfg)
    (p : List String) (hu : untouched user p) : (J.obj cfg).at p = (J.obj inputDefaults).at p := by
  rw [show inputDefaults = defaultInput from rfl]
  obtain ⟨c, h1, h2, -, -⟩ := checkInputSection_ok h
  simp only [Bool.false_eq_true, if_false] at h2
  rw [← h2]
  exact updateConf_default p user defaultInput c hw h1 hu

/-- Tests: a value given and a value by default. -/
example : (checkInputSection testEnv (testInput (testDisp (.int 1)) (testDisp (.int (-3)))) false).toOption.bind
    (fun cfg => (J.obj cfg).at ["input", "right", "nodata"]) = some (.float .nan) := by decide +kernel
example : untouched (testInput (testDisp (.int 1)) (testDisp (.int (-3)))) ["input", "left", "nodata"] := by
  simp [untouched, testInput, mk, Fields.get]
example : (J.obj inputDefaults).at ["input", "left", "nodata"] = some (.int (-9999)) := by decide

/-- C37, full statement: any value given by the user. -/
def C37Statement : Prop :=
  ∀ (env : Env) (user cfg : Fields), user.wf → checkInputSection env user false = .ok cfg →
    ∀ p v, (J.obj user).at p = some v → (∀ f, v = .obj f → f = .nil) → (J.obj cfg).at p = some (readValue v)

/-- C37 is false of the code: an empty dictionary given for `nodata` (which the schema would refuse) is replaced by the default
and accepted. -/
theorem C37_false_empty_dictionary : ¬ C37Statement := by
  intro h
  let user := mk [("input", .obj (mk [("left", .obj (mk [("img", .str "left.tif"), ("nodata", .obj .nil)])),
    ("right", .obj (mk [("img", .str "right.tif")])), ("row_disparity", testDisp (.int 0)), ("col_disparity", testDisp (.int 0))]))]
  cases hc : checkInputSection testEnv user false with
  | error e =>
    have : (checkInputSection testEnv user false).toOption.isSome = true := by decide +kernel
    rw [hc] at this
    simp [Except.toOption] at this
  | ok cfg =>
    have h1 := h testEnv user cfg (by simp [user, testDisp, mk, Fields.wf, J.wf, Fields.keys]) hc ["input", "left", "nodata"]
      (.obj .nil) (by decide) (by intro f hf; exact (J.obj.inj hf).symm)
    have h2 : (checkInputSection testEnv user false).toOption.bind (fun cfg => (J.obj cfg).at ["input", "left", "nodata"]) =
      some (.int (-9999)) := by decide +kernel
    rw [hc] at h2
    simp only [Except.toOption, Option.bind_some] at h2
    rw [h1] at h2
    revert h2
    decide

theorem setDefault_keeps {f : Fields} {k : String} {v : J} (k' : String) (w : J) (hk : f.get k = some v) :
    (f.setDefault k' w).get k = some v := by
  rw [Fields.get_setDefault]
  split_ifs with e
  · subst e; rw [hk]; rfl
  · exact hk

/-- C37 for the steps: estimation. Every value given is kept. -/
theorem C37_estimation_values (bi : Bool) (f g : Fields) (h : estimationCheck bi (.obj f) = .ok (.obj g)) (k : String) (v : J)
    (hk : f.get k = some v) : g.get k = some v := by
  unfold estimationCheck at h
  simp only at h
  split at h
  · simp at h
  · split_ifs at h
    have h' := J.obj.inj (Except.ok.inj h)
    rw [← h']
    exact setDefault_keeps _ _ (setDefault_keeps _ _ (setDefault_keeps _ _ hk))
  · simp at h

/-- C37 for the steps: disparity. Every value given is kept, "NaN" being converted. -/
theorem C37_disparity_values (bi : Bool) (f g : Fields) (h : disparityCheck bi (.obj f) = .ok (.obj g)) (k : String) (v : J)
    (hk : f.get k = some v) : g.get k = some v ∨ (v = .str "NaN" ∧ g.get k = some (.float .nan)) := by
  unfold disparityCheck at h
  simp only at h
  split_ifs at h
  have h' := J.obj.inj (Except.ok.inj h)
  rw [← h']
  unfold fillInvalid
  split
  · rename_i hn
    left
    rw [Fields.get_set]
    split_ifs with e
    · subst e; rw [hk] at hn; simp at hn
    · exact hk
  · rename_i s hs
    split_ifs with e
    · rw [Fields.get_set]
      split_ifs with e'
      · subst e'
        rw [hk, Option.some.injEq] at hs
        right
        exact ⟨by rw [hs, e], rfl⟩
      · exact Or.inl hk
    · exact Or.inl hk
  · exact Or.inl hk

/-- C37 for the steps: dichotomy. Every value given is kept, except a number of iterations larger than nine which becomes
nine. -/
theorem C37_dichotomy_values (bi : Bool) (f g : Fields) (h : dichotomyCheck bi f = .ok (.obj g)) (k : String) (v : J)
    (hk : f.get k = some v) : g.get k = some v ∨ (k = "iterations" ∧ (∃ n, IsInt true v n ∧ 9 < n) ∧ g.get k = some (.int 9)) := by
  unfold dichotomyCheck at h
  split_ifs at h
  have h' : g = capIterations f := by
    split at h
    · split at h
      · simp at h
      · exact (J.obj.inj (Except.ok.inj h)).symm
    · simp at h
  rw [h']
  unfold capIterations
  split
  · rename_i w hw
    split_ifs with e
    · rw [Fields.get_set]
      split_ifs with e'
      · subst e'
        rw [hk, Option.some.injEq] at hw
        subst hw
        refine Or.inr ⟨rfl, ?_, rfl⟩
        unfold pyInt at e
        cases hi : intVal true v with
        | none => rw [hi] at e; exact absurd e (by decide)
        | some n => rw [hi] at e; exact ⟨n, (intVal_iff true v n).1 hi, e⟩
      · exact Or.inl hk
    · exact Or.inl hk
  · exact Or.inl hk

/-- C37 for the steps: matching cost. The method and the step given are kept. -/
theorem C37_matching_cost_values {M : Type} (pandora : PandoraMc M) (f g : Fields) (step w : J) (m : M)
    (h : matchingCostCheck pandora (.obj f) = .ok (.obj g, step, w, m)) :
    g.get "matching_cost_method" = f.get "matching_cost_method" ∧ (∀ v, f.get "step" = some v → g.get "step" = some v) ∧
    g.get "step" = some step ∧ g.get "window_size" = some w := by
  unfold matchingCostCheck at h
  simp only at h
  split at h
  · simp at h
  · rename_i method hm
    split_ifs at h
    split at h
    · rename_i sr sc hst
      split at h
      · simp at h
      · simp only [Except.ok.injEq, Prod.mk.injEq, J.obj.injEq] at h
        obtain ⟨rfl, rfl, rfl, rfl⟩ := h
        refine ⟨?_, ?_, ?_, ?_⟩
        · simp [Fields.get, hm]
        · intro v hv
          rw [hv, Option.getD_some] at hst
          simp [Fields.get, hst]
        · simp [Fields.get, hst]
        · simp [Fields.get]
    · simp at h

/-- The optical flow does not keep the window size and the step given in its own section: they are replaced by those of the
matching cost. -/
theorem C37_optical_flow_overwrites (bi : Bool) (f g : Fields) (step w : J)
    (h : opticalFlowCheck bi f (some step) (some w) = .ok (.obj g)) :
    g.get "window_size" = some w ∧ g.get "step" = some step ∧
    ∀ k v, k ≠ "window_size" → k ≠ "step" → f.get k = some v → g.get k = some v := by
  unfold opticalFlowCheck at h
  split_ifs at h
  have h' := J.obj.inj (Except.ok.inj h)
  rw [← h']
  unfold fillOpticalFlow
  simp only [Option.getD_some]
  refine ⟨?_, ?_, ?_⟩
  · simp [Fields.get_setDefault, Fields.get_set]
  · simp [Fields.get_setDefault, Fields.get_set]
  · intro k v h1 h2 hk
    rw [Fields.get_setDefault, Fields.get_set, Fields.get_set, Fields.get_set, Fields.get_set]
    simp only [String.reduceEq, if_false]
    split_ifs with e1 e2 e3
    · subst e1; rw [hk]; rfl
    · exact absurd e2.symm h2
    · exact absurd e3.symm h1
    · exact hk

end Verif.Props
