import Verif.Spec.Main
import Verif.Props.CheckPipeline

/-!
# What the run reads in the sections of an accepted configuration
-/

namespace Verif.Props

open Verif Verif.Config Verif.Machine Verif.ImgTools Verif.MatchingCost Verif.Disparity Verif.Run Verif.Main Verif.Spec

set_option linter.unusedSectionVars false

variable {K : Type} [Field K] [LinearOrder K] [IsStrictOrderedRing K] [FloorRing K]

theorem IsInt.unique {v : J} {a b : Int} (h : IsInt true v a) (h' : IsInt true v b) : a = b := by
  have := pyInt_of h
  rw [pyInt_of h'] at this
  exact this.symm

theorem asInt_iff (v : J) (i : Int) : asInt v = .ok i ↔ IsInt true v i := by
  rw [← intVal_iff]
  unfold asInt
  cases intVal true v <;> simp

theorem asNat_iff (v : J) (n : Nat) : asNat v = .ok n ↔ IsInt true v n := by
  rw [← intVal_iff]
  unfold asNat
  cases intVal true v with
  | none => simp
  | some i =>
    simp only [Option.some.injEq]
    split_ifs with h
    · simp only [Except.ok.injEq]; omega
    · simp only [reduceCtorEq, false_iff]
      omega

theorem asObj_iff (v : J) (f : Fields) : asObj v = .ok f ↔ v = .obj f := by
  cases v <;> simp [asObj]

theorem asPair_iff (v : J) (p : Nat × Nat) : asPair v = .ok p ↔
    ∃ a b, v = .arr (.cons a (.cons b .nil)) ∧ IsInt true a p.1 ∧ IsInt true b p.2 := by
  constructor
  · intro h
    unfold asPair at h
    split at h
    · rename_i a b
      obtain ⟨x, hx, h⟩ := bind_eq_ok h
      obtain ⟨y, hy, h⟩ := bind_eq_ok h
      simp only [pure, Except.pure, Except.ok.injEq] at h
      subst h
      exact ⟨a, b, rfl, (asNat_iff _ _).1 hx, (asNat_iff _ _).1 hy⟩
    · simp at h
  · rintro ⟨a, b, rfl, ha, hb⟩
    simp only [asPair, (asNat_iff _ _).2 ha, (asNat_iff _ _).2 hb, bind, Except.bind, pure, Except.pure]

theorem asFloat_ok {v : J} {x : F K} (h : asFloat v = .ok x) : NumberIs v x := by
  unfold asFloat at h
  split at h <;> simp only [Except.ok.injEq, reduceCtorEq] at h
  · subst h; exact Or.inr (Or.inl ⟨_, rfl, rfl⟩)
  · subst h; exact Or.inr (Or.inr (Or.inl ⟨rfl, rfl⟩))
  · subst h; exact Or.inr (Or.inr (Or.inr (Or.inl ⟨rfl, rfl⟩)))
  · subst h; exact Or.inr (Or.inr (Or.inr (Or.inr ⟨rfl, rfl⟩)))
  · subst h; exact Or.inl ⟨_, Or.inl rfl, rfl⟩
  · rename_i b
    subst h
    cases b
    · exact Or.inl ⟨0, Or.inr ⟨rfl, Or.inr ⟨rfl, rfl⟩⟩, by simp⟩
    · exact Or.inl ⟨1, Or.inr ⟨rfl, Or.inl ⟨rfl, rfl⟩⟩, by simp⟩

theorem NumberIs.unique {v : J} {x y : F K} (h : NumberIs v x) (h' : NumberIs v y) : x = y := by
  rcases h with ⟨i, hi, rfl⟩ | ⟨q, rfl, rfl⟩ | ⟨rfl, rfl⟩ | ⟨rfl, rfl⟩ | ⟨rfl, rfl⟩ <;>
  rcases h' with ⟨j, hj, rfl⟩ | ⟨q', e, rfl⟩ | ⟨e, rfl⟩ | ⟨e, rfl⟩ | ⟨e, rfl⟩ <;>
  first
  | (rw [IsInt.unique hi hj])
  | (subst e; rcases hi with h | ⟨-, ⟨h, -⟩ | ⟨h, -⟩⟩ <;> simp at h)
  | (rcases hj with h | ⟨-, ⟨h, -⟩ | ⟨h, -⟩⟩ <;> simp at h)
  | (simp only [J.float.injEq, F.fin.injEq, reduceCtorEq] at e; rw [e])
  | rfl
  | (simp at e)

/-! ## Merged sections -/

theorem updateVal_obj {g c : Fields} {v' : J} (h : updateVal (some (.obj g)) (.obj c) = .ok v') :
    ∃ g', v' = .obj g' ∧ updateConf g c = .ok g' := by
  simp only [updateVal] at h
  cases hu : updateConf g c with
  | error e => rw [hu] at h; simp [Except.map] at h
  | ok g' =>
    rw [hu] at h
    simp only [Except.map, Except.ok.injEq] at h
    exact ⟨g', h.symm, rfl⟩

theorem merged_leaf {g c g' : Fields} (hn : c.keys.Nodup) (h : updateConf g c = .ok g') {k : String} {v : J} (hk : c.get k = some v)
    (hl : v.isLeaf = true) : g'.get k = some (conv v) := by
  obtain ⟨v', a, b⟩ := (updateConf_get c g g' hn h k).2 v hk
  rw [updateVal_leaf _ hl, Except.ok.injEq] at a
  rw [b, ← a]

theorem convAll_leaf {v : J} (h : v.isLeaf = true) : v.convAll = conv v := by
  cases v <;> simp_all [J.convAll, J.isLeaf]

/-- The steps of the matching cost section which the run reads. -/
theorem mc_section {w : World K} (hp : PandoraContract w) {v c v' : J} {sc : StepCfg K}
    (hc : Checked w.steps "matching_cost" v.convAll c) (hu : updateVal (some v.convAll) c = .ok v')
    (hb : buildMatchingCost w v' = .ok sc) :
    ∃ f g' n sr sc' a b off cost me, v = .obj f ∧ v' = .obj g' ∧ g'.get "step" = some (.arr (.cons a (.cons b .nil))) ∧
      IsInt true a (sr : Nat) ∧ IsInt true b (sc' : Nat) ∧ 1 ≤ sr ∧ 1 ≤ sc' ∧ 1 ≤ n ∧ CostContract cost ∧
      sc = .matchingCost ⟨n, sr, sc', me⟩ off cost ∧
      (f.get "step" = some (.arr (.cons a (.cons b .nil))) ∨ f.get "step" = none ∧ a = .int 1 ∧ b = .int 1) := by
  simp only [Checked, String.reduceEq, false_and, true_and, false_or, or_false] at hc
  obtain ⟨st, wn, mar, hc⟩ := hc
  -- the check
  have inv : ∀ {x c st wn : J} {mar : Margins}, matchingCostCheck w.pandora x = .ok (c, st, wn, mar) →
      ∃ f method a b sub spl, x = .obj f ∧ f.get "matching_cost_method" = some method ∧
        (f.get "step").getD (.arr (.cons (.int 1) (.cons (.int 1) .nil))) = .arr (.cons a (.cons b .nil)) ∧
        stepSchema (.arr (.cons a (.cons b .nil))) = true ∧
        w.pandora (f.set "step" b) = .ok (wn, sub, spl, mar) ∧
        c = .obj (.cons "matching_cost_method" method (.cons "step" (.arr (.cons a (.cons b .nil)))
              (.cons "window_size" wn (.cons "subpix" sub (.cons "spline_order" spl .nil))))) := by
    intro x c st wn mar h
    cases x with
    | obj f =>
      simp only [matchingCostCheck] at h
      cases hm : f.get "matching_cost_method" with
      | none => rw [hm] at h; simp at h
      | some method =>
        rw [hm] at h
        simp only at h
        split_ifs at h with hs
        rw [Bool.and_eq_true] at hs
        split at h
        · rename_i a b he
          split at h
          · simp at h
          · rename_i w' sub spl m' hpd
            simp only [Except.ok.injEq, Prod.mk.injEq] at h
            obtain ⟨rfl, -, rfl, rfl⟩ := h
            exact ⟨f, method, a, b, sub, spl, rfl, hm, he, he ▸ hs.2, hpd, rfl⟩
        · simp at h
    | _ => simp [matchingCostCheck] at h
  obtain ⟨fc, method, a, b, sub, spl, h1, h2, h3, h4, h5, rfl⟩ := inv hc
  obtain ⟨f, rfl, rfl⟩ := convAll_eq_obj h1
  obtain ⟨g', rfl, hg'⟩ := updateVal_obj hu
  have hstep : g'.get "step" = some (.arr (.cons a (.cons b .nil))) := by
    have := merged_leaf (k := "step") (v := .arr (.cons a (.cons b .nil))) (by simp [Fields.keys]) hg' (by simp [Fields.get]) rfl
    exact this
  -- the construction
  unfold buildMatchingCost at hb
  obtain ⟨⟨c2, st2, wn2, mar2⟩, hb1, hb⟩ := bind_eq_ok hb
  obtain ⟨f2, method2, a2, b2, sub2, spl2, q1, q2, q3, q4, q5, rfl⟩ := inv hb1
  simp only [J.obj.injEq] at q1
  subst q1
  rw [hstep] at q3
  simp only [Option.getD_some, J.arr.injEq, Js.cons.injEq, and_true] at q3
  obtain ⟨rfl, rfl⟩ := q3
  simp only [asObj, bind, Except.bind] at hb
  simp only [item, Fields.get, String.reduceEq, if_true, if_false] at hb
  obtain ⟨n, hn, hn1⟩ := hp.subpix _ _ _ _ _ q5
  split at hb
  · simp at hb
  · rename_i nn hnn
    split at hb
    · simp at hb
    · rename_i pp hpp
      simp only [pure, Except.pure, Except.ok.injEq] at hb
      obtain ⟨a', b', e, ha, hb'⟩ := (asPair_iff _ _).1 hpp
      simp only [J.arr.injEq, Js.cons.injEq, and_true] at e
      obtain ⟨rfl, rfl⟩ := e
      have hnn' := (asNat_iff _ _).1 hnn
      have hs := (stepSchema_iff _).1 h4
      have one : ∀ {x : J} {k : Nat}, IsInt true x k → AtLeastOne x → 1 ≤ k := by
        intro x k hx h
        rcases h with ⟨i, hi, h⟩ | ⟨q, rfl, -⟩ | rfl
        · have := IsInt.unique hx hi; omega
        · rcases hx with h | ⟨-, ⟨h, -⟩ | ⟨h, -⟩⟩ <;> simp at h
        · rcases hx with h | ⟨-, ⟨h, -⟩ | ⟨h, -⟩⟩ <;> simp at h
      obtain ⟨x, y, e, hx, hy⟩ := hs
      simp only [J.arr.injEq, Js.cons.injEq, and_true] at e
      obtain ⟨rfl, rfl⟩ := e
      refine ⟨f, g', nn, pp.1, pp.2, _, _, _, _, _, rfl, rfl, hstep, ha, hb', one ha hx, one hb' hy, ?_, hp.cost _, hb.symm, ?_⟩
      · have := IsInt.unique hnn' hn; omega
      · rw [Fields.get_convAll] at h3
        cases hf : f.get "step" with
        | none =>
          rw [hf] at h3
          simp only [Option.map_none, Option.getD_none, J.arr.injEq, Js.cons.injEq, and_true] at h3
          exact Or.inr ⟨rfl, h3.1.symm, h3.2.symm⟩
        | some s =>
          rw [hf] at h3
          simp only [Option.map_some, Option.getD_some] at h3
          left
          cases s with
          | str t =>
            simp only [J.convAll, conv] at h3
            split_ifs at h3
          | arr l => simpa [J.convAll, conv] using h3
          | _ => simp [J.convAll, conv] at h3

/-- The invalid disparity which the run reads. -/
theorem disp_section {w : World K} {v c v' : J} {sc : StepCfg K} (hw : v.wf)
    (hc : Checked w.steps "disparity" v.convAll c) (hu : updateVal (some v.convAll) c = .ok v')
    (hb : buildDisparity w v' = .ok sc) :
    ∃ f x, v = .obj f ∧ sc = .disparity x ∧ InvalidIs f x := by
  simp only [Checked, String.reduceEq, false_and, true_and, false_or, or_false] at hc
  obtain ⟨mar, hc⟩ := hc
  have hc' : disparityCheck w.env.boolIsInt v.convAll = .ok c := by
    simp only [World.steps, stepsOf, Except.map] at hc
    split at hc
    · simp at hc
    · simp only [Except.ok.injEq, Prod.mk.injEq] at hc
      rename_i h
      rw [h, hc.1]
  have inv : ∀ {x c : J}, disparityCheck w.env.boolIsInt x = .ok c → ∃ f, x = .obj f ∧ c = .obj (fillInvalid f) ∧
      disparitySchema w.env.boolIsInt (.obj (fillInvalid f)) = true := by
    intro x c h
    cases x with
    | obj f =>
      simp only [disparityCheck] at h
      split_ifs at h with hs
      exact ⟨f, rfl, (Except.ok.inj h).symm, hs⟩
    | _ => simp [disparityCheck] at h
  obtain ⟨fc, h1, rfl, h2⟩ := inv hc'
  obtain ⟨f, rfl, rfl⟩ := convAll_eq_obj h1
  obtain ⟨g', rfl, hg'⟩ := updateVal_obj hu
  -- the value in the checked section
  have leaf : ∀ {h : Fields}, disparitySchema w.env.boolIsInt (.obj h) = true → ∃ x, h.get "invalid_disparity" = some x ∧
      ((∃ i, IsInt true x i) ∨ ∃ y, x = .float y) := by
    intro h hs
    unfold disparitySchema at hs
    rw [dictOf_iff] at hs
    obtain ⟨x, hx, hb⟩ := hs.2 _ (List.mem_cons_of_mem _ List.mem_cons_self)
    refine ⟨x, hx, ?_⟩
    simp only [Bool.or_eq_true, Option.isSome_iff_exists] at hb
    rcases hb with ⟨i, hi⟩ | hb
    · exact Or.inl ⟨i, isInt_true ((intVal_iff _ _ _).1 hi)⟩
    · right
      cases x <;> simp_all
  have fixed : ∀ {x : J}, ((∃ i, IsInt true x i) ∨ ∃ y, x = .float y) → conv x = x ∧ x.isLeaf = true := by
    rintro x (⟨i, hi⟩ | ⟨y, rfl⟩)
    · rcases hi with rfl | ⟨-, ⟨rfl, -⟩ | ⟨rfl, -⟩⟩ <;> exact ⟨rfl, rfl⟩
    · exact ⟨rfl, rfl⟩
  obtain ⟨x, hx, hk⟩ := leaf h2
  have hfw : f.convAll.keys.Nodup := by
    rw [Fields.keys_convAll]; exact Fields.wf_keys f hw
  have hnod : (fillInvalid f.convAll).keys.Nodup := by
    unfold fillInvalid
    split
    · exact Fields.keys_set_nodup _ _ _ hfw
    · split_ifs
      · exact Fields.keys_set_nodup _ _ _ hfw
      · exact hfw
    · exact hfw
  have hgx : g'.get "invalid_disparity" = some x := by
    rw [merged_leaf hnod hg' hx (fixed hk).2, (fixed hk).1]
  -- the construction
  unfold buildDisparity at hb
  obtain ⟨c2, hb1, hb⟩ := bind_eq_ok hb
  obtain ⟨f2, q1, rfl, q2⟩ := inv hb1
  simp only [J.obj.injEq] at q1
  subst q1
  have hfill : (fillInvalid g').get "invalid_disparity" = some x := by
    unfold fillInvalid
    rw [hgx]
    rcases hk with ⟨i, hi⟩ | ⟨y, rfl⟩
    · rcases hi with rfl | ⟨-, ⟨rfl, -⟩ | ⟨rfl, -⟩⟩ <;> exact hgx
    · exact hgx
  obtain ⟨f3, hf3, hb⟩ := bind_eq_ok hb
  rw [asObj_iff, J.obj.injEq] at hf3
  subst hf3
  obtain ⟨x2, hx2, hb⟩ := bind_eq_ok hb
  rw [item_ok hx2, Option.some.injEq] at hfill
  subst hfill
  obtain ⟨y, hy, hb⟩ := bind_eq_ok hb
  simp only [pure, Except.pure, Except.ok.injEq] at hb
  refine ⟨f, y, rfl, hb.symm, ?_⟩
  have hnum := asFloat_ok hy
  unfold fillInvalid at hx
  rw [Fields.get_convAll] at hx
  cases hf : f.get "invalid_disparity" with
  | none =>
    rw [hf] at hx
    simp only [Option.map_none, Fields.get_set, if_true, Option.some.injEq] at hx
    subst hx
    right
    refine ⟨hf, ?_⟩
    refine NumberIs.unique hnum (Or.inl ⟨-9999, Or.inl rfl, ?_⟩)
    push_cast
    rfl
  | some u =>
    left
    refine ⟨u, hf, ?_⟩
    rw [← conv_eq]
    rw [hf] at hx
    simp only [Option.map_some] at hx
    have hcu : u.isLeaf = true → x2 = conv u := by
      intro hl
      rw [convAll_leaf hl] at hx
      split at hx
      · rename_i h; simp at h
      · rename_i s h
        simp only [Option.some.injEq] at h
        split_ifs at hx with hs
        · exfalso
          subst hs
          have := conv_conv u
          rw [h] at this
          simp [conv] at this
        · rw [Fields.get_convAll, hf] at hx
          simp only [Option.map_some, Option.some.injEq] at hx
          rw [← hx, convAll_leaf hl]
      · rw [Fields.get_convAll, hf] at hx
        simp only [Option.map_some, Option.some.injEq] at hx
        rw [← hx, convAll_leaf hl]
    have hleaf : u.isLeaf = true := by
      cases u with
      | obj o =>
        exfalso
        simp only [J.convAll] at hx
        rw [Fields.get_convAll, hf] at hx
        simp only [Option.map_some, J.convAll, Option.some.injEq] at hx
        have := (fixed hk).2
        rw [← hx] at this
        simp [J.isLeaf] at this
      | _ => rfl
    rw [← hcu hleaf]
    exact hnum

end Verif.Props
