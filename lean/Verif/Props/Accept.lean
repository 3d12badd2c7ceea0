import Verif.Props.SectionValues
import Verif.Props.MainExample
import Verif.Spec.Accept

/-!
# Property C86: the accepted configurations
-/

namespace Verif.Props

open Verif Verif.Config Verif.Machine Verif.Spec

set_option linter.unusedSectionVars false

section
variable {M : Type}

/-! ## Steps -/

theorem isInt_number {bi : Bool} {v : J} : (intVal bi v).isSome = true ↔ ∃ i, IsInt bi v i := by
  rw [Option.isSome_iff_exists]
  simp only [intVal_iff]

theorem strIn_one {s : String} {v : J} : strIn [s] v = true ↔ v = .str s := by
  cases v <;> simp [strIn]

theorem onlyKeys_iff {f : Fields} {ks : List String} : (∀ k ∈ f.keys, k ∈ ks) ↔ ∀ k v, f.get k = some v → k ∈ ks := by
  constructor
  · intro h k v hv
    exact h k (Fields.mem_of_get hv)
  · intro h k hk
    obtain ⟨v, hv⟩ := Option.isSome_iff_exists.1 ((Fields.get_isSome f k).2 hk)
    exact h k v hv

/-- The keys after the addition of an allowed one. -/
theorem onlyKeys_set {f : Fields} {ks : List String} {k : String} {v : J} (hk : k ∈ ks) :
    (∀ k' ∈ (f.set k v).keys, k' ∈ ks) ↔ ∀ k' ∈ f.keys, k' ∈ ks := by
  rw [onlyKeys_iff, onlyKeys_iff]
  constructor
  · intro h k' v' hv
    by_cases e : k = k'
    · exact e ▸ hk
    · exact h k' v' (by rw [Fields.get_set, if_neg e, hv])
  · intro h k' v' hv
    rw [Fields.get_set] at hv
    split_ifs at hv with e
    · exact e ▸ hk
    · exact h k' v' hv

theorem onlyKeys_setDefault {f : Fields} {ks : List String} {k : String} {v : J} (hk : k ∈ ks) :
    (∀ k' ∈ (f.setDefault k v).keys, k' ∈ ks) ↔ ∀ k' ∈ f.keys, k' ∈ ks := by
  unfold Fields.setDefault
  split
  · rfl
  · exact onlyKeys_set hk

/-- A key completed by a default value which is correct. -/
theorem hasKey_default {f : Fields} {k : String} {d : J} {P : J → Prop} (hd : P d) :
    (∃ v, (f.setDefault k d).get k = some v ∧ P v) ↔ MayKey f k P := by
  unfold MayKey
  rw [Fields.get_setDefault]
  cases h : f.get k with
  | none => simpa using hd
  | some v => simp

theorem get_setDefault_ne {f : Fields} {k k' : String} {d : J} (h : k ≠ k') : (f.setDefault k d).get k' = f.get k' := by
  rw [Fields.get_setDefault, if_neg]
  simp [h]

/-- Acceptance of the disparity step. -/
theorem disparity_iff (bi : Bool) (v : J) : (∃ c, disparityCheck bi v = .ok c) ↔ DisparityOk bi v := by
  unfold DisparityOk
  cases v with
  | obj f =>
    simp only [J.obj.injEq, exists_eq_left']
    have h1 : (∃ c, disparityCheck bi (.obj f) = .ok c) ↔ disparitySchema bi (.obj (fillInvalid f)) = true := by
      simp only [disparityCheck]
      split_ifs with h <;> simp [h]
    rw [h1]
    unfold disparitySchema
    rw [dictOf_iff]
    simp only [List.map_cons, List.map_nil, List.forall_mem_cons, List.not_mem_nil, false_imp_iff, implies_true, and_true, strIn_one,
      exists_eq_right, Bool.or_eq_true, isInt_number]
    unfold OnlyKeys MayKey
    cases hf : f.get "invalid_disparity" with
    | none =>
      have e : fillInvalid f = f.set "invalid_disparity" (.int (-9999)) := by unfold fillInvalid; rw [hf]
      rw [e, onlyKeys_set (by simp)]
      simp only [Fields.get_set]
      simp [IsInt]
    | some x =>
      by_cases hn : x = .str "NaN"
      · subst hn
        have e : fillInvalid f = f.set "invalid_disparity" (.float .nan) := by unfold fillInvalid; rw [hf]; rfl
        rw [e, onlyKeys_set (by simp)]
        simp only [Fields.get_set]
        simp
      · have e : fillInvalid f = f := by
          unfold fillInvalid
          rw [hf]
          cases x <;> simp_all
        rw [e, hf]
        cases x <;> simp_all
  | _ => simp [disparityCheck]

/-- Acceptance of the estimation step. -/
theorem estimation_iff (bi : Bool) (v : J) : (∃ c, estimationCheck bi v = .ok c) ↔ EstimationOk bi v := by
  unfold EstimationOk
  cases v with
  | obj f =>
    simp only [J.obj.injEq, exists_eq_left']
    by_cases hm : f.get "estimation_method" = some (.str "phase_cross_correlation")
    · have h1 : (∃ c, estimationCheck bi (.obj f) = .ok c) ↔ estimationSchema bi (.obj (fillEstimation f)) = true := by
        simp only [estimationCheck, hm, if_true]
        split_ifs with h <;> simp [h]
      rw [h1]
      unfold estimationSchema
      rw [dictOf_iff]
      simp only [List.map_cons, List.map_nil, List.forall_mem_cons, List.not_mem_nil, false_imp_iff, implies_true, and_true, strIn_one,
        exists_eq_right, intAnd_iff, Bool.and_eq_true, Bool.or_eq_true, decide_eq_true_eq]
      unfold fillEstimation
      rw [onlyKeys_setDefault (by simp), onlyKeys_setDefault (by simp), onlyKeys_setDefault (by simp)]
      have hr : ∀ i : Int, (2 < i ∧ i % 2 ≠ 0) ↔ (3 ≤ i ∧ i % 2 = 1) := by intro i; omega
      have hsf : ∀ i : Int, ((i % 10 = 0 ∨ i = 1) ∧ 0 < i) ↔ (i = 1 ∨ (0 < i ∧ i % 10 = 0)) := by intro i; omega
      simp only [hr, hsf]
      rw [hasKey_default (P := fun v => ∃ i, IsInt bi v i ∧ (i = 1 ∨ (0 < i ∧ i % 10 = 0))) ⟨1, Or.inl rfl, Or.inl rfl⟩]
      simp only [get_setDefault_ne (k := "sample_factor") (k' := "range_row") (by simp),
        get_setDefault_ne (k := "sample_factor") (k' := "range_col") (by simp),
        get_setDefault_ne (k := "sample_factor") (k' := "estimation_method") (by simp),
        get_setDefault_ne (k := "range_row") (k' := "range_col") (by simp),
        get_setDefault_ne (k := "range_row") (k' := "estimation_method") (by simp),
        get_setDefault_ne (k := "range_col") (k' := "estimation_method") (by simp)]
      rw [hasKey_default (P := fun v => ∃ i, IsInt bi v i ∧ (3 ≤ i ∧ i % 2 = 1)) ⟨5, Or.inl rfl, by decide⟩,
        hasKey_default (P := fun v => ∃ i, IsInt bi v i ∧ (3 ≤ i ∧ i % 2 = 1)) ⟨5, Or.inl rfl, by decide⟩]
      unfold OnlyKeys MayKey IntWith
      simp only [get_setDefault_ne (k := "range_row") (k' := "sample_factor") (by simp),
        get_setDefault_ne (k := "range_col") (k' := "sample_factor") (by simp),
        get_setDefault_ne (k := "range_col") (k' := "range_row") (by simp)]
    · have h1 : ¬ ∃ c, estimationCheck bi (.obj f) = .ok c := by
        rintro ⟨c, h⟩
        simp only [estimationCheck] at h
        split at h
        · simp at h
        · rename_i s hs
          split_ifs at h with e
          exact hm (by rw [hs, e])
        · simp at h
      simp [h1, hm]
  | _ => simp [estimationCheck]

/-- Acceptance of the matching cost step, with what it gives. -/
theorem matching_cost_iff (pandora : PandoraMc M) (v : J) (step w : J) (m : M) :
    (∃ c, matchingCostCheck pandora v = .ok (c, step, w, m)) ↔
      ∃ a b sx sp, step = .arr (.cons a (.cons b .nil)) ∧ MatchingCostGives pandora v a b w sx sp m := by
  unfold MatchingCostGives
  cases v with
  | obj f =>
    simp only [J.obj.injEq, exists_eq_left']
    simp only [matchingCostCheck]
    cases hm : f.get "matching_cost_method" with
    | none => simp
    | some method =>
      simp only [Option.some.injEq]
      constructor
      · rintro ⟨c, h⟩
        split_ifs at h with hs
        rw [Bool.and_eq_true, stepSchema_iff] at hs
        obtain ⟨hs1, a, b, hs2, ha, hb⟩ := hs
        rw [hs2] at h
        simp only at h
        split at h
        · simp at h
        · rename_i w' sx sp m' hp
          simp only [Except.ok.injEq, Prod.mk.injEq] at h
          obtain ⟨-, rfl, rfl, rfl⟩ := h
          refine ⟨a, b, sx, sp, rfl, ?_, ?_, ha, hb, hp⟩
          · cases method <;> simp [strIn] at hs1 ⊢
            exact hs1
          · cases hst : f.get "step" with
            | none =>
              rw [hst] at hs2
              simp at hs2
              exact Or.inr ⟨rfl, hs2.1.symm, hs2.2.symm⟩
            | some x =>
              rw [hst] at hs2
              simp at hs2
              exact Or.inl (by rw [hs2])
      · rintro ⟨a, b, sx, sp, rfl, ⟨s, hs, rfl⟩, hst, ha, hb, hp⟩
        have e : (f.get "step").getD (.arr (.cons (.int 1) (.cons (.int 1) .nil))) = .arr (.cons a (.cons b .nil)) := by
          rcases hst with h | ⟨h, rfl, rfl⟩ <;> rw [h] <;> rfl
        rw [e]
        have hs' : (strIn ["ssd", "sad", "zncc", "mc_cnn"] (.str s) && stepSchema (.arr (.cons a (.cons b .nil)))) = true := by
          rw [Bool.and_eq_true, stepSchema_iff]
          exact ⟨by simpa [strIn] using hs, a, b, rfl, ha, hb⟩
        rw [if_pos hs']
        simp only [hp]
        exact ⟨_, rfl⟩
  | _ => simp [matchingCostCheck]

/-- Acceptance of the filter of a dichotomy. -/
theorem filter_iff (bi : Bool) (v : J) : filterCheck bi v = .ok () ↔ FilterOk bi v := by
  unfold FilterOk
  cases v with
  | obj f =>
    simp only [J.obj.injEq, exists_eq_left']
    simp only [filterCheck]
    cases hm : f.get "method" with
    | none => simp
    | some x =>
      cases x with
      | str s =>
        simp only [Option.some.injEq, J.str.injEq]
        by_cases e1 : s = "bicubic"
        · subst e1
          simp only [if_true, true_and, String.reduceEq, false_and, or_false]
          split_ifs with h
          · simp only [true_iff]
            rw [dictOf_iff] at h
            exact h.1
          · simp only [false_iff]
            intro hk
            apply h
            rw [dictOf_iff]
            exact ⟨hk, by simp [hm, strIn]⟩
        · by_cases e2 : s = "sinc"
          · subst e2
            simp only [String.reduceEq, if_false, if_true, false_and, true_and, false_or]
            have : dictOpt [("method", strIn ["sinc"])] [("size", intAnd bi fun a => decide (6 ≤ a) && decide (a ≤ 21))] (.obj f) = true ↔
                OnlyKeys f ["method", "size"] ∧ MayKey f "size" (IntWith bi fun i => 6 ≤ i ∧ i ≤ 21) := by
              rw [dictOpt_iff]
              simp [hm, strIn, OnlyKeys, MayKey, IntWith, intAnd_iff]
            rw [← this]
            split_ifs with h <;> simp [h]
          · simp [e1, e2]
      | _ => simp
  | _ => simp [filterCheck]

/-- Acceptance of the refinement step. -/
theorem refinement_iff (bi : Bool) (v : J) (a b w : J) (ha : AtLeastOne a) (hb : AtLeastOne b) :
    (∃ c, refinementCheck bi v (some (.arr (.cons a (.cons b .nil)))) (some w) = .ok c) ↔ RefinementOk bi v w := by
  unfold RefinementOk
  cases v with
  | obj f =>
    simp only [J.obj.injEq, exists_eq_left']
    simp only [refinementCheck]
    cases hm : f.get "refinement_method" with
    | none => simp
    | some x =>
      cases x with
      | str s =>
        simp only [Option.some.injEq, J.str.injEq]
        by_cases e1 : s = "dichotomy"
        · subst e1
          simp only [if_true, true_and, String.reduceEq, false_and, or_false]
          unfold dichotomyCheck
          have hsch : dichotomySchema bi (.obj f) = true ↔ OnlyKeys f ["refinement_method", "iterations", "filter"] ∧
              HasKey f "iterations" (IntWith bi fun i => 0 < i) ∧
              HasKey f "filter" (fun v => ∃ g, v = .obj g ∧ ∃ s ∈ ["bicubic", "sinc"], g.get "method" = some (.str s)) := by
            unfold dichotomySchema
            rw [dictOf_iff]
            have hfil : ∀ v : J, (match v with
                | .obj g => (match g.get "method" with | some m => strIn ["bicubic", "sinc"] m | none => false)
                | _ => false) = true ↔ ∃ g, v = .obj g ∧ ∃ s ∈ ["bicubic", "sinc"], g.get "method" = some (.str s) := by
              intro v
              cases v with
              | obj g =>
                simp only [J.obj.injEq, exists_eq_left']
                cases hg : g.get "method" with
                | none => simp
                | some x => cases x <;> simp [strIn]
              | _ => simp
            simp only [List.map_cons, List.map_nil, List.forall_mem_cons, List.not_mem_nil, false_imp_iff, implies_true, and_true, strIn_one,
              exists_eq_right, intAnd_iff, decide_eq_true_eq, hm, true_and, OnlyKeys, HasKey, IntWith]
            refine and_congr_right fun _ => and_congr_right fun _ => ?_
            exact exists_congr fun v => and_congr_right fun _ => hfil v
          have hcap : (capIterations f).get "filter" = f.get "filter" := by
            unfold capIterations
            split
            · split_ifs
              · rw [Fields.get_set, if_neg (by simp)]
              · rfl
            · rfl
          rw [hcap]
          constructor
          · rintro ⟨c, h⟩
            split_ifs at h with hs
            obtain ⟨h1, h2, v, hv, -⟩ := hsch.1 hs
            rw [hv] at h
            simp only at h
            refine ⟨h1, h2, v, hv, ?_⟩
            rw [← filter_iff]
            split at h
            · simp at h
            · assumption
          · rintro ⟨h1, h2, v, hv, hf⟩
            rw [if_pos (hsch.2 ⟨h1, h2, v, hv, ?_⟩), hv]
            · simp only [(filter_iff bi v).2 hf]
              exact ⟨_, rfl⟩
            · obtain ⟨g, rfl, ⟨hg, -⟩ | ⟨hg, -⟩⟩ := hf
              · exact ⟨g, rfl, _, by simp, hg⟩
              · exact ⟨g, rfl, _, by simp, hg⟩
        · by_cases e2 : s = "optical_flow"
          · subst e2
            simp only [if_true, if_false, true_and, String.reduceEq, false_and, or_false, false_or]
            have h1 : (∃ c, opticalFlowCheck bi f (some (.arr (.cons a (.cons b .nil)))) (some w) = .ok c) ↔
                opticalFlowSchema bi (.obj (fillOpticalFlow f (some (.arr (.cons a (.cons b .nil)))) (some w))) = true := by
              unfold opticalFlowCheck
              split_ifs with h <;> simp [h]
            rw [h1]
            unfold opticalFlowSchema
            rw [dictOf_iff]
            simp only [List.map_cons, List.map_nil, List.forall_mem_cons, List.not_mem_nil, false_imp_iff, implies_true, and_true, strIn_one,
              exists_eq_right, intAnd_iff, Bool.and_eq_true, decide_eq_true_eq]
            unfold fillOpticalFlow
            rw [onlyKeys_setDefault (by simp), onlyKeys_set (by simp), onlyKeys_set (by simp),
              hasKey_default (P := fun v => ∃ i, IsInt bi v i ∧ 0 < i) ⟨4, Or.inl rfl, by decide⟩]
            have hodd : ∀ i : Int, (1 < i ∧ i % 2 ≠ 0) ↔ (3 ≤ i ∧ i % 2 = 1) := by intro i; omega
            have hst : stepSchema (.arr (.cons a (.cons b .nil))) = true := (stepSchema_iff _).2 ⟨a, b, rfl, ha, hb⟩
            simp only [get_setDefault_ne (k := "iterations") (k' := "window_size") (by simp),
              get_setDefault_ne (k := "iterations") (k' := "step") (by simp),
              get_setDefault_ne (k := "iterations") (k' := "refinement_method") (by simp), Fields.get_set, MayKey]
            simp [hm, hst, hodd, OnlyKeys, IntWith]
          · by_cases e3 : s = "interpolation"
            · subst e3
              simp only [if_true, if_false, true_and, String.reduceEq, false_and, false_or]
              unfold interpolationCheck
              have : dictOf [("refinement_method", strIn ["interpolation"])] (.obj f) = true ↔ OnlyKeys f ["refinement_method"] := by
                rw [dictOf_iff]
                simp [hm, strIn, OnlyKeys]
              rw [← this]
              split_ifs with h <;> simp [h]
            · simp [e1, e2, e3]
      | _ => simp
  | _ => simp [refinementCheck]

/-! ## Input section -/

theorem image_iff (env : Config.Env) (v : J) : dictOf [("img", fun v => isStr v && env.canOpenMandatory v),
    ("nodata", fun v => (intVal env.boolIsInt v).isSome || nanOrInf v),
    ("mask", fun v => (isStr v || decide (v = .null)) && env.canOpen v)] v = true ↔ ImageOk env v := by
  unfold ImageOk
  cases v with
  | obj f =>
    simp only [J.obj.injEq, exists_eq_left']
    rw [dictOf_iff]
    have h1 : ∀ v : J, isStr v = true ↔ ∃ s, v = .str s := by intro v; cases v <;> simp [isStr]
    have h2 : ∀ v : J, nanOrInf v = true ↔ (v = .float .nan ∨ v = .float .pinf ∨ v = .float .ninf) := by
      intro v
      cases v with
      | float x => cases x <;> simp [nanOrInf, F.isNaN, F.isInf]
      | _ => simp [nanOrInf]
    simp only [List.map_cons, List.map_nil, List.forall_mem_cons, List.not_mem_nil, false_imp_iff, implies_true, and_true, Bool.and_eq_true,
      Bool.or_eq_true, h1, h2, isInt_number, decide_eq_true_eq, OnlyKeys, HasKey]
  | _ => simp [dictOf, dictOpt]

theorem disp_iff (env : Config.Env) (v : J) : dictOf [("init", fun v => (intVal env.boolIsInt v).isSome || env.canOpen v),
    ("range", intAnd env.boolIsInt fun x => decide (0 ≤ x))] v = true ↔ ∃ init range, DispIs env v init range := by
  unfold DispIs
  cases v with
  | obj f =>
    simp only [J.obj.injEq, exists_eq_left']
    rw [dictOf_iff]
    simp only [List.map_cons, List.map_nil, List.forall_mem_cons, List.not_mem_nil, false_imp_iff, implies_true, and_true, Bool.or_eq_true,
      isInt_number, intAnd_iff, decide_eq_true_eq, OnlyKeys, HasKey]
    constructor
    · rintro ⟨hk, ⟨i, hi, hi2⟩, v, hv, r, hr, hr0⟩
      exact ⟨i, r, hk, hi, hi2, hr0, v, hv, hr⟩
    · rintro ⟨i, r, hk, hi, hi2, hr0, v, hv, hr⟩
      exact ⟨hk, ⟨i, hi, hi2⟩, v, hv, r, hr, hr0⟩
  | _ => simp [dictOf, dictOpt]

theorem checkRanges_iff (size : Nat × Nat) (a b : Option Rat) (rr cr : Int) : checkRanges size a rr b cr = .ok () ↔
    (∀ m, a = some m → |m| - (rr : Rat) ≤ (size.1 : Rat)) ∧ ∀ m, b = some m → |m| - (cr : Rat) ≤ (size.2 : Rat) := by
  have key : ∀ (o : Option Rat) (r : Int) (n : Nat) (t : Bool), t = (match o with | none => false | some a => decide (|a| - (r : Rat) > (n : Rat))) →
      (t = true ↔ ¬ ∀ m, o = some m → |m| - (r : Rat) ≤ (n : Rat)) := by
    rintro o r n _ rfl
    cases o with
    | none => simp
    | some a => simp only [decide_eq_true_eq, Option.some.injEq, forall_eq', gt_iff_lt, not_le]
  have gen : ∀ (p q : Bool) (P Q : Prop), (p = true ↔ ¬ P) → (q = true ↔ ¬ Q) →
      ((if p = true then (.error .valueError : Except Err Unit) else if q = true then .error .valueError else .ok ()) = .ok () ↔ P ∧ Q) := by
    intro p q P Q hp hq
    by_cases h1 : P <;> by_cases h2 : Q <;> cases p <;> cases q <;> simp_all
  exact gen _ _ _ _ (key a rr size.1 _ (by cases a <;> rfl)) (key b cr size.2 _ (by cases b <;> rfl))

theorem grids_iff (size : Nat × Nat) (g : GridFile) : checkDisparityGrids size g = .ok () ↔ g.count = 1 ∧ g.height = size.1 ∧ g.width = size.2 := by
  unfold checkDisparityGrids
  by_cases h1 : g.count = 1
  · by_cases h2 : (g.height, g.width) = size
    · subst h2; simp [h1]
    · have : ¬ (g.height = size.1 ∧ g.width = size.2) := fun h => h2 (Prod.ext h.1 h.2)
      simp [h1, h2, this]
  · simp [h1]

theorem rangeOf_disp {env : Config.Env} {f : Fields} {range : Int} (h : HasKey f "range" (fun v => IsInt env.boolIsInt v range)) :
    rangeOf f = .ok range := by
  obtain ⟨v, hv, hr⟩ := h
  unfold rangeOf item
  rw [hv]
  simp only [bind, Except.bind, (intVal_iff true v range).2 (isInt_true hr)]

theorem checkDisparity_iff {env : Config.Env} {size : Nat × Nat} {inp : Fields} {rv cv ri ci : J} {rr cr : Int}
    (hr : inp.get "row_disparity" = some rv) (hr' : DispIs env rv ri rr) (hc : inp.get "col_disparity" = some cv) (hc' : DispIs env cv ci cr) :
    checkDisparity env size inp = .ok () ↔
      ((ConstantInside size.1 ri rr ∧ ConstantInside size.2 ci cr) ∨ (GridInside env size size.1 ri rr ∧ GridInside env size size.2 ci cr)) := by
  obtain ⟨f, rfl, -, fi, -, -, fr⟩ := hr'
  obtain ⟨g, rfl, -, gi, -, -, gr⟩ := hc'
  unfold checkDisparity
  simp only [item, hr, hc, fi, gi, bind, Except.bind, rangeOf_disp fr, rangeOf_disp gr]
  have hcst : ∀ (v : J) (n : Nat) (r : Int), ConstantInside n v r ↔ (isIntPy v = true ∧ |((pyInt v : Int) : Rat)| - (r : Rat) ≤ (n : Rat)) := by
    intro v n r
    unfold ConstantInside
    rw [isIntPy_iff]
    constructor
    · rintro ⟨i, hi, h⟩
      refine ⟨⟨i, hi⟩, ?_⟩
      rw [pyInt_of hi, ← Int.cast_abs, ← Int.cast_sub]
      exact_mod_cast h
    · rintro ⟨⟨i, hi⟩, h⟩
      refine ⟨i, hi, ?_⟩
      rw [pyInt_of hi, ← Int.cast_abs, ← Int.cast_sub] at h
      exact_mod_cast h
  split
  · rename_i a b
    have n1 : ¬ ConstantInside size.1 (.str a) rr := by rw [hcst]; simp [isIntPy]
    simp only [n1, false_and, false_or]
    unfold GridInside
    simp only [J.str.injEq]
    cases ha : env.openGrid a with
    | error e =>
      refine ⟨fun h => by simp at h, ?_⟩
      rintro ⟨⟨s, g, rfl, hs, -⟩, -⟩
      rw [ha] at hs; simp at hs
    | ok ga =>
      cases hb : env.openGrid b with
      | error e =>
        refine ⟨fun h => by simp at h, ?_⟩
        rintro ⟨-, s, g, rfl, hs, -⟩
        rw [hb] at hs; simp at hs
      | ok gb =>
        simp only
        constructor
        · intro h
          cases h1 : checkDisparityGrids size ga with
          | error e => rw [h1] at h; simp at h
          | ok u =>
            cases h2 : checkDisparityGrids size gb with
            | error e => rw [h1, h2] at h; simp at h
            | ok u' =>
              rw [h1, h2] at h
              simp only [checkRanges_iff] at h
              obtain ⟨q1, q2, q3⟩ := (grids_iff size ga).1 h1
              obtain ⟨p1, p2, p3⟩ := (grids_iff size gb).1 h2
              exact ⟨⟨a, ga, rfl, ha, q1, q2, q3, h.1⟩, b, gb, rfl, hb, p1, p2, p3, h.2⟩
        · rintro ⟨⟨s, g, rfl, hs, q1, q2, q3, q4⟩, s', g', rfl, hs', p1, p2, p3, p4⟩
          rw [ha, Except.ok.injEq] at hs
          rw [hb, Except.ok.injEq] at hs'
          subst hs hs'
          rw [(grids_iff size ga).2 ⟨q1, q2, q3⟩, (grids_iff size gb).2 ⟨p1, p2, p3⟩]
          simp only [checkRanges_iff]
          exact ⟨q4, p4⟩
  · rename_i hns
    have ng : ¬ (GridInside env size size.1 ri rr ∧ GridInside env size size.2 ci cr) := by
      rintro ⟨⟨s, -, rfl, -⟩, s', -, rfl, -⟩
      exact hns s s' rfl rfl
    rw [hcst, hcst]
    by_cases hi : (isIntPy ri && isIntPy ci) = true
    · rw [if_pos hi]
      rw [Bool.and_eq_true] at hi
      simp only [checkRanges_iff, hi.1, hi.2, true_and, Option.some.injEq, forall_eq', ng, or_false]
    · rw [if_neg hi]
      rw [Bool.and_eq_true] at hi
      simp only [ng, or_false]
      exact ⟨fun h => by simp at h, fun h => absurd ⟨h.1.1, h.2.1⟩ hi⟩

theorem DispIs.unique {env : Config.Env} {v i i' : J} {r r' : Int} (h : DispIs env v i r) (h' : DispIs env v i' r') : i = i' ∧ r = r' := by
  obtain ⟨f, rfl, -, h1, -, -, x, h2, h3⟩ := h
  obtain ⟨g, e, -, h1', -, -, x', h2', h3'⟩ := h'
  rw [J.obj.injEq] at e
  subst e
  rw [h1, Option.some.injEq] at h1'
  rw [h2, Option.some.injEq] at h2'
  subst h2'
  exact ⟨h1', IsInt.unique (isInt_true h3) (isInt_true h3')⟩

theorem validate_iff (env : Config.Env) (est : Bool) (cfg : Fields) : validateInput env est cfg = .ok () ↔
    OnlyKeys cfg ["input"] ∧ ∃ inp, cfg.get "input" = some (.obj inp) ∧ InputOk env est inp := by
  have hsch : ∀ v, inputSchema env v = true ↔ ∃ inp, v = .obj inp ∧ OnlyKeys inp ["left", "right", "col_disparity", "row_disparity"] ∧
      HasKey inp "left" (ImageOk env) ∧ HasKey inp "right" (ImageOk env) ∧
      (∃ rv ri rr, inp.get "row_disparity" = some rv ∧ DispIs env rv ri rr) ∧ ∃ cv ci cr, inp.get "col_disparity" = some cv ∧ DispIs env cv ci cr := by
    intro v
    cases v with
    | obj f =>
      unfold inputSchema
      simp only [J.obj.injEq, exists_eq_left']
      rw [dictOf_iff]
      simp only [List.map_cons, List.map_nil, List.forall_mem_cons, List.not_mem_nil, false_imp_iff, implies_true, and_true, image_iff,
        disp_iff, OnlyKeys, HasKey]
      constructor
      · rintro ⟨hk, hl, hr, ⟨cv, hc, ci, cr, hc'⟩, rv, hr', ri, rr, hr''⟩
        exact ⟨hk, hl, hr, ⟨rv, ri, rr, hr', hr''⟩, cv, ci, cr, hc, hc'⟩
      · rintro ⟨hk, hl, hr, ⟨rv, ri, rr, hr', hr''⟩, cv, ci, cr, hc, hc'⟩
        exact ⟨hk, hl, hr, ⟨cv, hc, ci, cr, hc'⟩, rv, hr', ri, rr, hr''⟩
    | _ => simp [inputSchema, dictOf, dictOpt]
  unfold validateInput
  constructor
  · intro h
    by_cases hs : dictOf [("input", inputSchema env)] (.obj cfg) = true
    case neg => rw [if_neg hs] at h; simp at h
    rw [if_pos hs] at h
    rw [dictOf_iff] at hs
    obtain ⟨v, hv, hsv⟩ := hs.2 ("input", inputSchema env) (by simp)
    simp only at hv hsv
    obtain ⟨inp, rfl, hk, hl, hr, ⟨rv, ri, rr, hrv, hrd⟩, cv, ci, cr, hcv, hcd⟩ := (hsch v).1 hsv
    refine ⟨fun k hk => by simpa using hs.1 k hk, inp, hv, hk, hl, hr, rv, ri, rr, cv, ci, cr, hrv, hrd, hcv, hcd, ?_⟩
    rw [hv] at h
    simp only at h
    split at h
    · simp at h
    · rename_i hci
      refine ⟨hci, ?_⟩
      rintro rfl
      simp only [Bool.false_eq_true, if_false] at h
      split at h
      · simp at h
      · rename_i size hsz
        exact ⟨size, hsz, (checkDisparity_iff hrv hrd hcv hcd).1 h⟩
  · rintro ⟨hk0, inp, hv, hk, hl, hr, rv, ri, rr, cv, ci, cr, hrv, hrd, hcv, hcd, hci, hd⟩
    rw [if_pos, hv]
    · simp only [hci]
      cases est with
      | true => rfl
      | false =>
        obtain ⟨size, hsz, hh⟩ := hd rfl
        simp only [Bool.false_eq_true, if_false, hsz]
        exact (checkDisparity_iff hrv hrd hcv hcd).2 hh
    · rw [dictOf_iff]
      refine ⟨fun k hk => by simpa using hk0 k hk, ?_⟩
      simp only [List.mem_singleton, forall_eq]
      exact ⟨_, hv, (hsch _).2 ⟨inp, rfl, hk, hl, hr, ⟨rv, ri, rr, hrv, hrd⟩, cv, ci, cr, hcv, hcd⟩⟩

/-- C86 (input section): it is accepted, and completed as `cfg`, exactly when `cfg` is its completion and is correct. -/
theorem C86_input (env : Config.Env) (iv : J) (cfg : Fields) (est : Bool) : checkInputSection env (.cons "input" iv .nil) est = .ok cfg ↔
    CompletedInput est (.cons "input" iv .nil) cfg ∧ ∃ inp, cfg.get "input" = some (.obj inp) ∧ InputOk env est inp := by
  have hkeys : ∀ d : Fields, d.keys = ["input"] → ∀ u r : Fields, u.keys = ["input"] → updateConf d u = .ok r → r.keys = ["input"] := by
    intro d hd u r hu h
    rw [updateConf_keys _ _ _ h, hd, hu]
    rfl
  have hok : CompletedInput est (.cons "input" iv .nil) cfg → OnlyKeys cfg ["input"] := by
    intro h
    have : cfg.keys = ["input"] := by
      unfold CompletedInput at h
      split_ifs at h
      · obtain ⟨c, h1, h2⟩ := h
        exact hkeys _ rfl _ _ (hkeys _ rfl _ _ rfl h1) h2
      · exact hkeys _ rfl _ _ rfl h
    unfold OnlyKeys
    rw [this]
    exact fun _ h => h
  have hcomp : checkInputSection env (.cons "input" iv .nil) est = .ok cfg ↔
      CompletedInput est (.cons "input" iv .nil) cfg ∧ validateInput env est cfg = .ok () := by
    unfold checkInputSection CompletedInput
    simp only [Fields.get, if_true]
    change (match updateConf inputDefaults _ with | .error e => _ | .ok cfg => _) = _ ↔ _
    cases h1 : updateConf inputDefaults (.cons "input" iv .nil) with
    | error e => cases est <;> simp
    | ok c =>
      simp only
      cases est with
      | true =>
        simp only [if_true, Except.ok.injEq, exists_eq_left']
        change (match updateConf dispDefaults _ with | .error e => _ | .ok cfg => _) = _ ↔ _
        cases h2 : updateConf dispDefaults c with
        | error e => simp
        | ok c' =>
          simp only [Except.ok.injEq]
          cases h3 : validateInput env true c' with
          | error e =>
            simp only [reduceCtorEq, false_iff]
            rintro ⟨rfl, h⟩
            rw [h3] at h; simp at h
          | ok u =>
            simp only [Except.ok.injEq]
            exact ⟨fun h => ⟨h, h ▸ h3⟩, fun h => h.1⟩
      | false =>
        simp only [Bool.false_eq_true, if_false, Except.ok.injEq]
        cases h3 : validateInput env false c with
        | error e =>
          simp only [reduceCtorEq, false_iff]
          rintro ⟨rfl, h⟩
          rw [h3] at h; simp at h
        | ok u =>
          simp only [Except.ok.injEq]
          exact ⟨fun h => ⟨h, h ▸ h3⟩, fun h => h.1⟩
  rw [hcomp, validate_iff]
  constructor
  · rintro ⟨h1, -, h2⟩; exact ⟨h1, h2⟩
  · rintro ⟨h1, h2⟩; exact ⟨h1, hok h1, h2⟩

/-! ## Pipeline -/

/-- A dictionary whose values are leaves or those of the section is merged with it. -/
theorem merge_ok {g c : Fields} (hw : g.wf) (hn : g.normal) (hd : c.keys.Nodup)
    (hv : ∀ k y, c.get k = some y → y.isLeaf = true ∨ g.get k = some y) : ∃ r, updateConf g c = .ok r := by
  refine updateConf_ok c g hd fun k v hk => ?_
  rcases hv k v hk with h | h
  · exact ⟨_, updateVal_leaf _ h⟩
  · rw [h]
    exact ⟨_, updateVals_self g hw hn k v h⟩

theorem fills_ok {g c : Fields} (h : Fills g c) (hw : g.wf) (hn : g.normal) : ∃ r, updateConf g c = .ok r := ⟨c, h.merge hw hn⟩

theorem updateVal_ok {g c : Fields} (h : ∃ r, updateConf g c = .ok r) : ∃ v', updateVal (some (.obj g)) (.obj c) = .ok v' := by
  obtain ⟨r, hr⟩ := h
  exact ⟨.obj r, by simp only [updateVal, hr, Except.map]⟩

/-- The checked section of a step is merged with the section of the user. -/
theorem section_merges {bi : Bool} {pandora : PandoraMc M} {null : M} {rm : J → M} (hp : GivesLeaves pandora) {k : String} {v c : J}
    (hw : v.wf) (hc : Checked (stepsOf bi pandora null rm) k v.convAll c) : ∃ v', updateVal (some v.convAll) c = .ok v' := by
  cases hv : v.convAll with
  | obj fc =>
    rw [hv] at hc
    obtain ⟨f, rfl, rfl⟩ := convAll_eq_obj hv
    have hfw : f.convAll.wf := convAlls_wf f (by simpa [J.wf] using hw)
    have hfn := convAlls_normal f
    have hnd := Fields.wf_keys _ hfw
    rcases hc with ⟨rfl, hc⟩ | ⟨rfl, st, wn, mar, hc⟩ | ⟨rfl, mar, hc⟩ | ⟨rfl, a, b, mar, hc⟩
    · simp only [stepsOf, estimationCheck] at hc
      split at hc
      · simp at hc
      · split_ifs at hc with _ hs
        rw [Except.ok.injEq] at hc
        subst hc
        refine updateVal_ok (fills_ok ?_ hfw hfn)
        unfold fillEstimation
        exact (((Fills.refl hnd).setDefault _ _ rfl rfl).setDefault _ _ rfl rfl).setDefault _ _ rfl rfl
      · simp at hc
    · simp only [stepsOf, matchingCostCheck] at hc
      split at hc
      · simp at hc
      · rename_i method hm
        split_ifs at hc with hs
        split at hc
        · split at hc
          · simp at hc
          · rename_i w' sub spl m' hpd
            simp only [Except.ok.injEq, Prod.mk.injEq] at hc
            obtain ⟨rfl, -, rfl, rfl⟩ := hc
            obtain ⟨l1, l2, l3⟩ := hp _ _ _ _ _ hpd
            have hml : method.isLeaf = true := by
              rw [Bool.and_eq_true] at hs
              have h1 := hs.1
              cases method with
              | str s => rfl
              | _ => simp [strIn] at h1
            refine updateVal_ok (merge_ok hfw hfn (by simp [Fields.keys]) fun k y hk => Or.inl ?_)
            simp only [Fields.get] at hk
            split_ifs at hk <;> rw [Option.some.injEq] at hk <;> subst hk
            exacts [hml, rfl, l1, l2, l3]
        · simp at hc
    · simp only [stepsOf, disparityCheck, Except.map] at hc
      by_cases hs : disparitySchema bi (.obj (fillInvalid f.convAll)) = true
      · rw [if_pos hs] at hc
        simp only [Except.ok.injEq, Prod.mk.injEq] at hc
        obtain ⟨rfl, -⟩ := hc
        refine updateVal_ok (fills_ok ?_ hfw hfn)
        unfold fillInvalid
        split
        · exact (Fills.refl hnd).set _ _ rfl rfl
        · split_ifs
          · exact (Fills.refl hnd).set _ _ rfl rfl
          · exact Fills.refl hnd
        · exact Fills.refl hnd
      · rw [if_neg hs] at hc; simp at hc
    · have hc' : refinementCheck bi (.obj f.convAll) a b = .ok c := by
        simp only [stepsOf, Except.map] at hc
        split at hc
        · simp at hc
        · simp only [Except.ok.injEq, Prod.mk.injEq] at hc
          rename_i h
          rw [h, hc.1]
      simp only [refinementCheck] at hc'
      split at hc'
      · simp at hc'
      · split_ifs at hc' with e1 e2 e3
        · unfold dichotomyCheck at hc'
          split_ifs at hc' with hs
          split at hc'
          · split at hc'
            · simp at hc'
            · rw [Except.ok.injEq] at hc'
              subst hc'
              refine updateVal_ok (fills_ok ?_ hfw hfn)
              unfold capIterations
              split
              · split_ifs
                · exact (Fills.refl hnd).set _ _ rfl rfl
                · exact Fills.refl hnd
              · exact Fills.refl hnd
          · simp at hc'
        · unfold opticalFlowCheck at hc'
          split_ifs at hc' with hs
          rw [Except.ok.injEq] at hc'
          subst hc'
          unfold opticalFlowSchema at hs
          rw [dictOf_iff] at hs
          have g1 : (fillOpticalFlow f.convAll a b).get "window_size" = some (b.getD .null) := by
            unfold fillOpticalFlow
            rw [get_setDefault_ne (by decide), Fields.get_set, if_neg (by decide), Fields.get_set, if_pos rfl]
          have g2 : (fillOpticalFlow f.convAll a b).get "step" = some (a.getD (.arr (.cons (.int 1) (.cons (.int 1) .nil)))) := by
            unfold fillOpticalFlow
            rw [get_setDefault_ne (by decide), Fields.get_set, if_pos rfl]
          have l1 : (b.getD .null).isLeaf = true ∧ conv (b.getD .null) = b.getD .null := by
            obtain ⟨x, hx, hx'⟩ := hs.2 _ (List.mem_cons_of_mem _ (List.mem_cons_of_mem _ List.mem_cons_self))
            simp only at hx hx'
            rw [g1, Option.some.injEq] at hx
            subst hx
            rw [intAnd_iff] at hx'
            obtain ⟨n, hn, -⟩ := hx'
            exact isInt_leaf (isInt_true hn)
          have l2 : (a.getD (.arr (.cons (.int 1) (.cons (.int 1) .nil)))).isLeaf = true ∧
              conv (a.getD (.arr (.cons (.int 1) (.cons (.int 1) .nil)))) = a.getD (.arr (.cons (.int 1) (.cons (.int 1) .nil))) := by
            obtain ⟨x, hx, hx'⟩ := hs.2 _ (List.mem_cons_of_mem _ (List.mem_cons_of_mem _ (List.mem_cons_of_mem _ List.mem_cons_self)))
            simp only at hx hx'
            rw [g2, Option.some.injEq] at hx
            subst hx
            obtain ⟨sr, sc, he, -⟩ := (stepSchema_iff _).1 hx'
            rw [he]
            exact ⟨rfl, rfl⟩
          refine updateVal_ok (fills_ok ?_ hfw hfn)
          unfold fillOpticalFlow
          exact (((Fills.refl hnd).set _ _ l1.1 l1.2).set _ _ l2.1 l2.2).setDefault _ _ rfl rfl
        · unfold interpolationCheck at hc'
          split_ifs at hc'
          rw [Except.ok.injEq] at hc'
          subst hc'
          exact updateVal_ok (fills_ok (Fills.refl hnd) hfw hfn)
      · simp at hc'
  | _ =>
    rw [hv] at hc
    rcases hc with ⟨rfl, hc⟩ | ⟨rfl, st, wn, mar, hc⟩ | ⟨rfl, mar, hc⟩ | ⟨rfl, a, b, mar, hc⟩
    · simp [stepsOf, estimationCheck] at hc
    · simp [stepsOf, matchingCostCheck] at hc
    · simp [stepsOf, disparityCheck, Except.map] at hc
    · simp [stepsOf, refinementCheck, Except.map] at hc

theorem lookup_get {p0 : Fields} (hn : p0.keys.Nodup) {k : String} {v : J} (h : p0.get k = some v) :
    lookup (toPipeline p0.convAll) k = .ok v.convAll := by
  have hnc : p0.convAll.keys.Nodup := by rw [Fields.keys_convAll]; exact hn
  have hm : (k, v.convAll) ∈ toPipeline p0.convAll := by
    rw [toPipeline_mem _ hnc, Fields.get_convAll, h]; rfl
  have := pipeline_new.lookup_mem' (toPipeline p0.convAll) (by rw [toPipeline_keys]; exact hnc) hm
  unfold lookup
  rw [this]

section
variable {bi : Bool} {pandora : PandoraMc M} {null : M} {rm : J → M}

theorem run_est {p0 : Fields} (hn : p0.keys.Nodup) {v : J} (h : p0.get "estimation" = some v) (l : List (Cb × String)) (d : Attrs J M) :
    (runCallbacks (checkExec (stepsOf bi pandora null rm)) (toPipeline p0.convAll) ((.estimationCheck, "estimation") :: l) d).2 = none ↔
      ∃ c, estimationCheck bi v.convAll = .ok c ∧ (runCallbacks (checkExec (stepsOf bi pandora null rm)) (toPipeline p0.convAll) l
        { d with pipelineCfg := dictSet d.pipelineCfg "estimation" c }).2 = none := by
  simp only [runCallbacks, checkExec, lookup_get hn h, bind, Except.bind, stepsOf]
  cases hc : estimationCheck bi v.convAll with
  | error e => simp
  | ok c => simp

theorem run_mc {p0 : Fields} (hn : p0.keys.Nodup) {v : J} (h : p0.get "matching_cost" = some v) (l : List (Cb × String)) (d : Attrs J M) :
    (runCallbacks (checkExec (stepsOf bi pandora null rm)) (toPipeline p0.convAll) ((.matchingCostCheck, "matching_cost") :: l) d).2 = none ↔
      ∃ c st w m, matchingCostCheck pandora v.convAll = .ok (c, st, w, m) ∧
        (runCallbacks (checkExec (stepsOf bi pandora null rm)) (toPipeline p0.convAll) l
        { d with
          pipelineCfg := dictSet d.pipelineCfg "matching_cost" c
          step := some st
          windowSize := some w
          cumulative := dictSet d.cumulative "matching_cost" m }).2 = none := by
  simp only [runCallbacks, checkExec, lookup_get hn h, bind, Except.bind, stepsOf]
  cases hc : matchingCostCheck pandora v.convAll with
  | error e => simp
  | ok c => 
    obtain ⟨c, st, w, m⟩ := c
    simp only [Except.ok.injEq, Prod.mk.injEq]
    constructor
    · intro h
      exact ⟨c, st, w, m, ⟨rfl, rfl, rfl, rfl⟩, h⟩
    · rintro ⟨c', st', w', m', ⟨rfl, rfl, rfl, rfl⟩, h⟩
      exact h

theorem run_disp {p0 : Fields} (hn : p0.keys.Nodup) {v : J} (h : p0.get "disparity" = some v) (l : List (Cb × String)) (d : Attrs J M) :
    (runCallbacks (checkExec (stepsOf bi pandora null rm)) (toPipeline p0.convAll) ((.disparityCheck, "disparity") :: l) d).2 = none ↔
      ∃ c, disparityCheck bi v.convAll = .ok c ∧ (runCallbacks (checkExec (stepsOf bi pandora null rm)) (toPipeline p0.convAll) l
        { d with pipelineCfg := dictSet d.pipelineCfg "disparity" c, cumulative := dictSet d.cumulative "disparity" null }).2 = none := by
  simp only [runCallbacks, checkExec, lookup_get hn h, bind, Except.bind, stepsOf]
  cases hc : disparityCheck bi v.convAll with
  | error e => simp [Except.map]
  | ok c => simp [Except.map]

theorem run_ref {p0 : Fields} (hn : p0.keys.Nodup) {v : J} (h : p0.get "refinement" = some v) (d : Attrs J M) :
    (runCallbacks (checkExec (stepsOf bi pandora null rm)) (toPipeline p0.convAll) [(.refinementCheck, "refinement")] d).2 = none ↔
      ∃ c, refinementCheck bi v.convAll d.step d.windowSize = .ok c := by
  simp only [runCallbacks, checkExec, lookup_get hn h, bind, Except.bind, stepsOf]
  cases hc : refinementCheck bi v.convAll d.step d.windowSize with
  | error e => simp [Except.map]
  | ok c => simp [Except.map]

/-- The callbacks after the estimation. -/
theorem run_rest {p0 : Fields} (hn : p0.keys.Nodup) (rest : List String) (hr : ∀ k ∈ rest, k ∈ p0.keys)
    (hmc : "matching_cost" ∈ p0.keys → "matching_cost" ∈ rest) (hd : "disparity" ∈ p0.keys → "disparity" ∈ rest)
    (href : "refinement" ∈ p0.keys → "refinement" ∈ rest)
    (h : rest = [] ∨ rest = ["matching_cost"] ∨ rest = ["matching_cost", "disparity"] ∨ rest = ["matching_cost", "disparity", "refinement"])
    (d : Attrs J M) :
    (runCallbacks (checkExec (stepsOf bi pandora null rm)) (toPipeline p0.convAll) (checkPlan rest) d).2 = none ↔
      (∀ v, p0.get "matching_cost" = some v → ∃ a b w sx sp m, MatchingCostGives pandora v.convAll a b w sx sp m ∧
        ∀ r, p0.get "refinement" = some r → RefinementOk bi r.convAll w) ∧
      (∀ v, p0.get "disparity" = some v → DisparityOk bi v.convAll) := by
  have hnone : ∀ k, (k ∈ p0.keys → k ∈ rest) → k ∉ rest → p0.get k = none := fun k h1 h2 => (Fields.get_eq_none _ _).2 fun h => h2 (h1 h)
  have hsome : ∀ k, k ∈ rest → ∃ v, p0.get k = some v := by
    intro k hk
    cases hg : p0.get k with
    | none => exact absurd (hr k hk) ((Fields.get_eq_none _ _).1 hg)
    | some v => exact ⟨v, rfl⟩
  rcases h with rfl | rfl | rfl | rfl
  · simp [checkPlan, runCallbacks, hnone _ hmc (by simp), hnone _ hd (by simp)]
  · obtain ⟨v, hv⟩ := hsome "matching_cost" (by simp)
    have e : checkPlan ["matching_cost"] = [(.matchingCostCheck, "matching_cost")] := rfl
    rw [e, run_mc hn hv, hnone _ hd (by simp), hnone _ href (by simp), hv]
    simp only [runCallbacks, and_true, Option.some.injEq, forall_eq', reduceCtorEq, false_imp_iff, implies_true]
    constructor
    · rintro ⟨c, st, w, m, hc⟩
      obtain ⟨a, b, sx, sp, -, hg⟩ := (matching_cost_iff pandora _ st w m).1 ⟨c, hc⟩
      exact ⟨a, b, w, sx, sp, m, hg⟩
    · rintro ⟨a, b, w, sx, sp, m, hg⟩
      obtain ⟨c, hc⟩ := (matching_cost_iff pandora _ _ w m).2 ⟨a, b, sx, sp, rfl, hg⟩
      exact ⟨c, _, w, m, hc⟩
  · obtain ⟨v, hv⟩ := hsome "matching_cost" (by simp)
    obtain ⟨v', hv'⟩ := hsome "disparity" (by simp)
    have e : checkPlan ["matching_cost", "disparity"] = [(.matchingCostCheck, "matching_cost"), (.disparityCheck, "disparity")] := rfl
    rw [e, run_mc hn hv, hnone _ href (by simp), hv, hv']
    simp only [run_disp hn hv']
    simp only [runCallbacks, and_true, Option.some.injEq, forall_eq', reduceCtorEq, false_imp_iff, implies_true, disparity_iff]
    constructor
    · rintro ⟨c, st, w, m, hc, hd⟩
      obtain ⟨a, b, sx, sp, -, hg⟩ := (matching_cost_iff pandora _ st w m).1 ⟨c, hc⟩
      exact ⟨⟨a, b, w, sx, sp, m, hg⟩, hd⟩
    · rintro ⟨⟨a, b, w, sx, sp, m, hg⟩, hd⟩
      obtain ⟨c, hc⟩ := (matching_cost_iff pandora _ _ w m).2 ⟨a, b, sx, sp, rfl, hg⟩
      exact ⟨c, _, w, m, hc, hd⟩
  · obtain ⟨v, hv⟩ := hsome "matching_cost" (by simp)
    obtain ⟨v', hv'⟩ := hsome "disparity" (by simp)
    obtain ⟨v'', hv''⟩ := hsome "refinement" (by simp)
    have e : checkPlan ["matching_cost", "disparity", "refinement"] =
      [(.matchingCostCheck, "matching_cost"), (.disparityCheck, "disparity"), (.refinementCheck, "refinement")] := rfl
    rw [e, run_mc hn hv, hv, hv', hv'']
    simp only [run_disp hn hv', run_ref hn hv'', Option.some.injEq, forall_eq']
    constructor
    · rintro ⟨c, st, w, m, hc, c', hd, hr⟩
      obtain ⟨a, b, sx, sp, rfl, hg⟩ := (matching_cost_iff pandora _ st w m).1 ⟨c, hc⟩
      refine ⟨⟨a, b, w, sx, sp, m, hg, ?_⟩, (disparity_iff _ _).1 ⟨c', hd⟩⟩
      obtain ⟨f, -, -, -, ha, hb, -⟩ := hg
      exact (refinement_iff bi _ a b w ha hb).1 hr
    · rintro ⟨⟨a, b, w, sx, sp, m, hg, hr⟩, hd⟩
      obtain ⟨c, hc⟩ := (matching_cost_iff pandora _ _ w m).2 ⟨a, b, sx, sp, rfl, hg⟩
      obtain ⟨c', hc'⟩ := (disparity_iff _ _).2 hd
      refine ⟨c, _, w, m, hc, c', hc', ?_⟩
      obtain ⟨f, -, -, -, ha, hb, -⟩ := hg
      exact (refinement_iff bi _ a b w ha hb).2 hr

theorem run_iff {p0 : Fields} (hn : p0.keys.Nodup) (hwf : WellFormed p0.keys) :
    (runCallbacks (checkExec (stepsOf bi pandora null rm)) (toPipeline p0.convAll) (checkPlan p0.keys) .init).2 = none ↔
      SectionsOk bi pandora p0 := by
  obtain ⟨e, hk⟩ := wellFormed_cases hwf hn
  obtain ⟨rest, hkeys, hrest⟩ : ∃ rest, p0.keys = (if e then ["estimation"] else []) ++ rest ∧ (rest = [] ∨ rest = ["matching_cost"] ∨
      rest = ["matching_cost", "disparity"] ∨ rest = ["matching_cost", "disparity", "refinement"]) := by
    rcases hk with h | h | h | h
    · exact ⟨[], by rw [h, List.append_nil], Or.inl rfl⟩
    · exact ⟨_, h, Or.inr (Or.inl rfl)⟩
    · exact ⟨_, h, Or.inr (Or.inr (Or.inl rfl))⟩
    · exact ⟨_, h, Or.inr (Or.inr (Or.inr rfl))⟩
  have hne : ∀ k, k ≠ "estimation" → k ∈ p0.keys → k ∈ rest := by
    intro k h1 h2
    rw [hkeys] at h2
    cases e <;> simpa [h1] using h2
  have hr := fun d => run_rest (bi := bi) (pandora := pandora) (null := null) (rm := rm) hn rest (fun k hk => by rw [hkeys]; exact List.mem_append_right _ hk)
    (hne _ (by decide)) (hne _ (by decide)) (hne _ (by decide)) hrest d
  unfold SectionsOk
  cases e with
  | false =>
    have hnone : p0.get "estimation" = none := by
      rw [Fields.get_eq_none, hkeys]
      rcases hrest with rfl | rfl | rfl | rfl <;> simp
    rw [hkeys]
    simp only [Bool.false_eq_true, if_false, List.nil_append]
    rw [hr, hnone]
    simp
  | true =>
    obtain ⟨v, hv⟩ : ∃ v, p0.get "estimation" = some v := by
      cases hg : p0.get "estimation" with
      | none => exact absurd (by rw [hkeys]; simp) ((Fields.get_eq_none _ _).1 hg)
      | some v => exact ⟨v, rfl⟩
    have e : checkPlan p0.keys = (.estimationCheck, "estimation") :: checkPlan rest := by rw [hkeys]; rfl
    rw [e, run_est hn hv, hv]
    simp only [hr, Option.some.injEq, forall_eq', ← estimation_iff]
    constructor
    · rintro ⟨c, h1, h2⟩; exact ⟨⟨c, h1⟩, h2⟩
    · rintro ⟨⟨c, h1⟩, h2⟩; exact ⟨c, h1, h2⟩

/-- C86 (pipeline section): it is accepted exactly when the steps are in order and each section is correct. -/
theorem C86_pipeline (hp : GivesLeaves pandora) (user p0 : Fields) (hw : user.wf) (hu : user.get "pipeline" = some (.obj p0)) :
    (∃ m c, checkPipelineJ (stepsOf bi pandora null rm) user (fresh .init) = (m, .ok c)) ↔ WellFormed p0.keys ∧ SectionsOk bi pandora p0 := by
  have hpw : p0.wf := Fields.wf_get user hw hu
  have hn : p0.keys.Nodup := Fields.wf_keys p0 hpw
  have hnc : p0.convAll.keys.Nodup := by rw [Fields.keys_convAll]; exact hn
  constructor
  · rintro ⟨m, c, h⟩
    obtain ⟨u, pl, pl', h1, h2, h3, h4, rfl⟩ := checkPipelineJ_form _ user _ _ m h
    obtain ⟨hwf, -, hr, -⟩ := pipeline_new _ user p0 pl' m hw hu h
    exact ⟨hwf, (run_iff hn hwf).1 hr⟩
  · rintro ⟨hwf, hs⟩
    have hr := (run_iff (null := null) (rm := rm) hn hwf).2 hs
    obtain ⟨hiff, hm⟩ := check_from_begin (checkExec (stepsOf bi pandora null rm)) (toPipeline p0.convAll) (.init : Attrs J M)
    rw [toPipeline_keys, Fields.keys_convAll] at hiff hm
    have h2 := hiff.2 ⟨hwf, hr⟩
    have h1 := hm h2
    obtain ⟨i1, -, -, i4, -⟩ := check_list (stepsOf bi pandora null rm) (toPipeline p0.convAll) p0.keys
      (path_names ((wellFormed_iff _).1 hwf)) .init hr
    have e1 : (runCallbacks (checkExec (stepsOf bi pandora null rm)) (toPipeline p0.convAll) (checkPlan p0.keys) .init).1.pipelineCfg.map Prod.fst
        = p0.keys := by
      rw [i1, addKeys_disjoint _ _ hn (by simp [Attrs.init])]; simp [Attrs.init]
    obtain ⟨r, hr'⟩ : ∃ r, updateConf p0.convAll (ofPipeline (runCallbacks (checkExec (stepsOf bi pandora null rm)) (toPipeline p0.convAll)
        (checkPlan p0.keys) .init).1.pipelineCfg) = .ok r := by
      refine updateConf_ok _ _ (by rw [ofPipeline_keys, e1]; exact hn) fun k c hk => ?_
      rw [ofPipeline_get _ (by rw [e1]; exact hn)] at hk
      have hkk : k ∈ p0.keys := by rw [← e1]; exact List.mem_map.2 ⟨_, hk, rfl⟩
      obtain ⟨p, hp1, hp2⟩ := i4 _ hk hkk
      rw [toPipeline_mem _ hnc, Fields.get_convAll, Option.map_eq_some_iff] at hp1
      obtain ⟨v, hv, rfl⟩ := hp1
      obtain ⟨v', hv'⟩ := section_merges hp (Fields.wf_get p0 hpw hv) hp2
      refine ⟨v', ?_⟩
      rw [Fields.get_convAll, hv]
      exact hv'
    refine ⟨fresh (runCallbacks (checkExec (stepsOf bi pandora null rm)) (toPipeline p0.convAll) (checkPlan p0.keys) .init).1,
      .cons "pipeline" (.obj r) .nil, ?_⟩
    unfold checkPipelineJ
    rw [updateConf_nil user hw]
    simp only [Fields.get_convAll, hu, Option.map_some, J.convAll]
    have h3 : Machine.checkConf (checkExec (stepsOf bi pandora null rm)) (toPipeline p0.convAll) (fresh .init) =
        (fresh (runCallbacks (checkExec (stepsOf bi pandora null rm)) (toPipeline p0.convAll) (checkPlan p0.keys) .init).1, none) :=
      Prod.ext h1 h2
    rw [h3]
    simp only [fresh, hr']

/-! ## Whole configuration -/

theorem expert_iff (user : Fields) : (∃ e, checkExpert user = .ok e) ↔ ExpertOk user := by
  unfold checkExpert ExpertOk MayKey
  cases hu : user.get "expert_mode" with
  | none => simp
  | some v =>
    simp only [Option.some.injEq, forall_eq']
    cases v with
    | obj e =>
      cases e with
      | nil => simp
      | cons k x r =>
        simp only [J.obj.injEq, exists_eq_left', reduceCtorEq, false_or, HasKey]
        cases hp : (Fields.cons k x r).get "profiling" with
        | none => simp
        | some p =>
          simp only [Option.some.injEq, exists_eq_left']
          have hiff : dictOf [("folder_name", isStr)] p = true ↔ ∃ f s, p = .obj f ∧ OnlyKeys f ["folder_name"] ∧ f.get "folder_name" = some (.str s) := by
            cases p with
            | obj f =>
              rw [dictOf_iff]
              have h1 : ∀ v : J, isStr v = true ↔ ∃ s, v = .str s := by intro v; cases v <;> simp [isStr]
              simp only [List.map_cons, List.map_nil, List.forall_mem_cons, List.not_mem_nil, false_imp_iff, implies_true, and_true, h1,
                J.obj.injEq, OnlyKeys]
              constructor
              · rintro ⟨hk, v, hv, s, rfl⟩; exact ⟨f, s, rfl, hk, hv⟩
              · rintro ⟨f, s, rfl, hk, hv⟩; exact ⟨hk, _, hv, s, rfl⟩
            | _ => simp [dictOf, dictOpt]
          rw [← hiff]
          by_cases h : dictOf [("folder_name", isStr)] p = true
          · simp [h]
          · simp [h]
    | _ => simp

theorem roi_iff (bi : Bool) (user : Fields) (hw : user.wf) :
    (∃ r, checkRoiSection bi (getRoiConfig user) = .ok r) ↔ MayKey user "ROI" (RoiOk bi) := by
  constructor
  · rintro ⟨r, h⟩
    exact (roi_unchanged bi user r hw h).2
  · intro h
    unfold getRoiConfig
    cases hu : user.get "ROI" with
    | none => exact ⟨_, C36_no_roi bi⟩
    | some v => exact (C36_accepted_iff bi v (Fields.wf_get user hw hu)).1.2 (h v hu)

/-- The matching cost method after the check. -/
theorem method_kept {st : Steps J M} (hst : st = stepsOf bi pandora null rm) {user p0 pl' : Fields} {m : Mach (Attrs J M)} (hw : user.wf)
    (hp : user.get "pipeline" = some (.obj p0))
    (h : checkPipelineJ st user (fresh .init) = (m, .ok (.cons "pipeline" (.obj pl') .nil))) :
    (p0.get "matching_cost" = none ∧ pl'.get "matching_cost" = none) ∨ ∃ f g s, p0.get "matching_cost" = some (.obj f) ∧
      pl'.get "matching_cost" = some (.obj g) ∧ f.get "matching_cost_method" = some (.str s) ∧ g.get "matching_cost_method" = some (.str s) := by
  subst hst
  obtain ⟨-, hk, -, -, hs⟩ := pipeline_new _ user p0 pl' m hw hp h
  cases hv : p0.get "matching_cost" with
  | none =>
    refine Or.inl ⟨rfl, ?_⟩
    rw [Fields.get_eq_none] at hv ⊢
    rwa [hk]
  | some v =>
    obtain ⟨c, v', hc, -, hu, hg⟩ := hs _ v hv
    simp only [Checked, String.reduceEq, false_and, true_and, false_or, or_false] at hc
    obtain ⟨st, wn, mar, hc⟩ := hc
    have hc : matchingCostCheck pandora v.convAll = .ok (c, st, wn, mar) := hc
    obtain ⟨f, g, rfl, rfl, hcomp, -⟩ := matching_cost_completed hc hu
    obtain ⟨a, b, sx, sp, -, f', hf', ⟨s, hs, hfs⟩, -⟩ := (matching_cost_iff pandora _ st wn mar).1 ⟨c, hc⟩
    simp only [J.convAll, J.obj.injEq] at hf'
    subst hf'
    rw [Fields.get_convAll, Option.map_eq_some_iff] at hfs
    obtain ⟨x, hx, hxs⟩ := hfs
    have hxe : x = .str s := by
      cases x with
      | str t =>
        simp only [J.convAll, conv] at hxs
        split_ifs at hxs; simp_all
      | _ => simp [J.convAll, conv] at hxs
    subst hxe
    refine Or.inr ⟨f, g, s, rfl, hg, hx, ?_⟩
    have := hcomp "matching_cost_method" [] (.str s) (by simp) (by simp [J.at, hx]) rfl
    have hread : readValue (.str s) = .str s := by
      simp only [List.mem_cons, List.not_mem_nil, or_false] at hs
      rcases hs with rfl | rfl | rfl | rfl <;> rfl
    rw [hread] at this
    cases hgm : g.get "matching_cost_method" with
    | none => simp [J.at, hgm] at this
    | some y => simpa [J.at, hgm] using this

theorem nodata_iff {env : Config.Env} {est : Bool} {cfg inp p0 pl' : Fields} (hi : cfg.get "input" = some (.obj inp)) (hinp : InputOk env est inp)
    (hm : (p0.get "matching_cost" = none ∧ pl'.get "matching_cost" = none) ∨ ∃ f g s, p0.get "matching_cost" = some (.obj f) ∧
      pl'.get "matching_cost" = some (.obj g) ∧ f.get "matching_cost_method" = some (.str s) ∧ g.get "matching_cost_method" = some (.str s)) :
    (∀ v, pl'.get "matching_cost" = some v → checkRightNodata cfg pl' = .ok ()) ↔ NodataOk inp p0 := by
  obtain ⟨-, -, ⟨rv, hr, r, rfl, -, -, ⟨nd, hnd, -⟩, -⟩, -⟩ := hinp
  have hat : (J.obj inp).at ["right", "nodata"] = some nd := by simp [J.at, hr, hnd]
  unfold NodataOk
  rw [hat]
  simp only [Option.some.injEq, exists_and_left, exists_eq_left', ← isIntPy_iff]
  rcases hm with ⟨h1, h2⟩ | ⟨f, g, s, h1, h2, h3, h4⟩
  · simp [h2, J.at, h1]
  · have hat' : (J.obj p0).at ["matching_cost", "matching_cost_method"] = some (.str s) := by simp [J.at, h1, h3]
    rw [hat', h2]
    simp only [Option.some.injEq, forall_eq', J.str.injEq, checkRightNodata, item, hi, hr, hnd, h2, h4, bind, Except.bind]
    by_cases hb : isIntPy nd = true
    · simp [hb]
    · by_cases hs : strIn ["sad", "ssd"] (.str s) = true
      · rw [if_neg hb, if_pos hs]
        simp only [strIn, List.mem_cons, List.not_mem_nil, or_false] at hs
        refine ⟨fun h => by simp at h, fun h => ?_⟩
        rcases h with h | h
        · exact absurd h hb
        · simp_all
      · rw [if_neg hb, if_neg hs]
        simp only [strIn, List.mem_cons, List.not_mem_nil, or_false] at hs
        refine ⟨fun _ => Or.inr ?_, fun _ => rfl⟩
        simp_all

/-- C86: a configuration is accepted by `check_conf` exactly when it is correct. -/
theorem C86_accepted_iff (env : Config.Env) (hp : GivesLeaves pandora) (user : Fields) (hw : user.wf) :
    (∃ m cfg, Config.checkConf env (stepsOf bi pandora null rm) user (fresh .init) = (m, .ok cfg)) ↔ Acceptable env bi pandora user := by
  have hest : ∀ pl : Fields, givesEstimation pl = true ↔ AsksEstimation pl := by
    intro pl
    unfold givesEstimation AsksEstimation
    cases pl.get "estimation" with
    | none => simp
    | some v => simp
  constructor
  · rintro ⟨m, cfg, h⟩
    obtain ⟨pl, input, roi, pl', expert, h1, h2, h3, h4, h5, h6, -⟩ := checkConf_sections env _ user cfg _ m h
    unfold getConfigInput at h2
    split at h2
    · rename_i iv hiv
      obtain ⟨hc, inp, hg, hin⟩ := (C86_input env iv input _).1 h2
      obtain ⟨hwf, hs⟩ := (C86_pipeline hp user pl hw h1).1 ⟨m, _, h4⟩
      exact ⟨pl, iv, inp, input, givesEstimation pl, h1, hest pl, hiv, hc, hg, hin, (roi_iff _ user hw).1 ⟨roi, h3⟩, hwf, hs,
        (nodata_iff hg hin (method_kept rfl hw h1 h4)).1 h5, (expert_iff user).1 ⟨expert, h6⟩⟩
    · simp [checkInputSection, Fields.get] at h2
  · rintro ⟨pl, iv, inp, cfg, est, h1, he, hiv, hc, hg, hin, hroi, hwf, hs, hnd, hex⟩
    obtain ⟨m, c, h4⟩ := (C86_pipeline (null := null) (rm := rm) hp user pl hw h1).2 ⟨hwf, hs⟩
    obtain ⟨-, -, pl', -, -, -, -, rfl⟩ := checkPipelineJ_form _ user _ _ m h4
    have hee : givesEstimation pl = est := by rw [Bool.eq_iff_iff, hest, he]
    subst hee
    obtain ⟨roi, h3⟩ := (roi_iff _ user hw).2 hroi
    obtain ⟨expert, h6⟩ := (expert_iff user).2 hex
    have h2 := (C86_input env iv cfg _).2 ⟨hc, inp, hg, hin⟩
    have h5 := (nodata_iff hg hin (method_kept rfl hw h1 h4)).2 hnd
    refine ⟨m, cfg.append (roi.append ((Fields.cons "pipeline" (.obj pl') .nil).append expert)), ?_⟩
    unfold Config.checkConf
    rw [h1]
    have h2' : checkInputSection env (getConfigInput user) (givesEstimation pl) = .ok cfg := by
      unfold getConfigInput; rw [hiv]; exact h2
    simp only [givesEstimation] at h2'
    cases hpe : pl.get "estimation" with
    | none =>
      rw [hpe] at h2'
      simp only at h2'
      simp only [hpe, h2', h3, h4, Fields.get, if_true]
      cases hmc : pl'.get "matching_cost" with
      | none => simp only [h6]
      | some v => simp only [h5 v hmc, h6]
    | some x =>
      rw [hpe] at h2'
      simp only at h2'
      simp only [hpe, h2', h3, h4, Fields.get, if_true]
      cases hmc : pl'.get "matching_cost" with
      | none => simp only [h6]
      | some v => simp only [h5 v hmc, h6]

end

/-! ## Examples -/

/-- Whether a result is a value. -/
def accepts {α β : Type} (r : β × Except Err α) : Bool := match r.2 with | .ok _ => true | .error _ => false

theorem accepts_iff {α β : Type} (r : β × Except Err α) : accepts r = true ↔ ∃ m c, r = (m, .ok c) := by
  obtain ⟨m, c | c⟩ := r <;> simp [accepts]

theorem exWorld_leaves : GivesLeaves exWorld.pandora := by
  intro f w sx sp m h
  simp only [exWorld, Except.ok.injEq, Prod.mk.injEq] at h
  obtain ⟨rfl, rfl, rfl, -⟩ := h
  exact ⟨rfl, rfl, rfl⟩

/-- The configuration of the example is correct. -/
example : Acceptable exWorld.env false exWorld.pandora exUser :=
  (C86_accepted_iff (null := ⟨0, 0, 0, 0⟩) (rm := fun _ => ⟨0, 0, 0, 0⟩) exWorld.env exWorld_leaves exUser exUser_wf).1
    ((accepts_iff _).1 (by decide +kernel))

/-- Without the column disparity it is not. -/
example : ¬ Acceptable exWorld.env false exWorld.pandora (exUser.set "input" (.obj (dict [
    ("left", .obj (dict [("img", .str "left.tif")])), ("right", .obj (dict [("img", .str "right.tif"), ("nodata", .str "NaN")])),
    ("row_disparity", .obj (dict [("init", .int 1), ("range", .int 1)]))]))) := by
  rw [← C86_accepted_iff (null := ⟨0, 0, 0, 0⟩) (rm := fun _ => ⟨0, 0, 0, 0⟩) exWorld.env exWorld_leaves _
    (by simp [exUser, dict, Fields.wf, J.wf, Fields.keys, Fields.set]), ← accepts_iff]
  decide +kernel

/-- A grid of another size is not accepted: the image has four columns and the grids three. -/
example : ¬ Acceptable { exWorld.env with imageSize := fun _ => .ok (5, 4) } false exWorld.pandora (exUser.set "input" (.obj (dict [
    ("left", .obj (dict [("img", .str "left.tif")])), ("right", .obj (dict [("img", .str "right.tif"), ("nodata", .str "NaN")])),
    ("row_disparity", .obj (dict [("init", .str "grid.tif"), ("range", .int 1)])),
    ("col_disparity", .obj (dict [("init", .str "grid.tif"), ("range", .int 1)]))]))) := by
  rw [← C86_accepted_iff (null := ⟨0, 0, 0, 0⟩) (rm := fun _ => ⟨0, 0, 0, 0⟩) _ exWorld_leaves _
    (by simp [exUser, dict, Fields.wf, J.wf, Fields.keys, Fields.set]), ← accepts_iff]
  decide +kernel

end
end Verif.Props
