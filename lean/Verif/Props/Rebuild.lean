import Verif.Props.MainVolume
import Verif.Props.ConfigAgain

/-!
# The checked sections of the pipeline can be built again

`check_conf` merges each section of the user with its checked version, and the run builds each step from the merged section.
-/

namespace Verif.Props

open Verif Verif.Config Verif.Machine Verif.ImgTools Verif.MatchingCost Verif.Disparity Verif.Estimation Verif.Run Verif.Main Verif.Spec

set_option linter.unusedSectionVars false

/-! ## Normal forms -/

mutual
theorem convAll_normal : (v : J) → v.convAll.normal
  | .obj f => by simp only [J.convAll, J.normal]; exact convAlls_normal f
  | .null => by simp [J.convAll, J.normal, conv]
  | .bool _ => by simp [J.convAll, J.normal, conv]
  | .int _ => by simp [J.convAll, J.normal, conv]
  | .float _ => by simp [J.convAll, J.normal, conv]
  | .arr _ => by simp [J.convAll, J.normal, conv]
  | .str s => by
    have h := conv_conv (.str s)
    have hl : (conv (.str s)).isLeaf = true := conv_leaf rfl
    simp only [J.convAll]
    cases hc : conv (.str s) with
    | obj f => rw [hc] at hl; simp [J.isLeaf] at hl
    | _ => rw [hc] at h; simpa [J.normal] using h

theorem convAlls_normal : (f : Fields) → f.convAll.normal
  | .nil => by simp [Fields.convAll, Fields.normal]
  | .cons k v r => by
    simp only [Fields.convAll, Fields.normal]
    exact ⟨convAll_normal v, convAlls_normal r⟩
end

mutual
theorem convAll_wf : (v : J) → v.wf → v.convAll.wf
  | .obj f, h => by
    simp only [J.convAll, J.wf] at h ⊢
    exact convAlls_wf f h
  | .null, _ => by simp [J.convAll, J.wf, conv]
  | .bool _, _ => by simp [J.convAll, J.wf, conv]
  | .int _, _ => by simp [J.convAll, J.wf, conv]
  | .float _, _ => by simp [J.convAll, J.wf, conv]
  | .arr _, h => by simpa [J.convAll, conv] using h
  | .str s, h => by
    simp only [J.convAll]
    exact conv_wf _ h

theorem convAlls_wf : (f : Fields) → f.wf → f.convAll.wf
  | .nil, _ => by simp [Fields.convAll, Fields.wf]
  | .cons k v r, h => by
    simp only [Fields.convAll, Fields.wf] at h ⊢
    refine ⟨?_, convAll_wf v h.2.1, convAlls_wf r h.2.2⟩
    rw [Fields.keys_convAll]
    exact h.1
end

/-! ## Sections completed by a check -/

/-- A dictionary `c` which is `g` with new keys and new values; the new values are not dictionaries, and `update_conf` leaves them. -/
structure Fills (g c : Fields) : Prop where
  keys : ∃ e, c.keys = g.keys ++ e
  nodup : c.keys.Nodup
  vals : ∀ k y, c.get k = some y → (y.isLeaf = true ∧ conv y = y) ∨ g.get k = some y

theorem Fills.refl {g : Fields} (h : g.keys.Nodup) : Fills g g := ⟨⟨[], by simp⟩, h, fun _ _ h => Or.inr h⟩

theorem Fills.set {g c : Fields} (h : Fills g c) (k : String) (v : J) (hl : v.isLeaf = true) (hc : conv v = v) : Fills g (c.set k v) := by
  refine ⟨?_, Fields.keys_set_nodup _ _ _ h.nodup, fun k' y hy => ?_⟩
  · obtain ⟨e, he⟩ := h.keys
    rw [Fields.keys_set]
    split_ifs
    · exact ⟨e, he⟩
    · exact ⟨e ++ [k], by rw [he, List.append_assoc]⟩
  · rw [Fields.get_set] at hy
    split_ifs at hy with e
    · rw [Option.some.injEq] at hy
      subst hy
      exact Or.inl ⟨hl, hc⟩
    · exact h.vals k' y hy

theorem Fills.setDefault {g c : Fields} (h : Fills g c) (k : String) (v : J) (hl : v.isLeaf = true) (hc : conv v = v) :
    Fills g (c.setDefault k v) := by
  unfold Fields.setDefault
  split
  · exact h
  · exact h.set k v hl hc

/-- Merging the completed section gives the completed section. -/
theorem Fills.merge {g c : Fields} (h : Fills g c) (hw : g.wf) (hn : g.normal) : updateConf g c = .ok c := by
  obtain ⟨e, he⟩ := h.keys
  have hgn := Fields.wf_keys g hw
  apply updateConf_fixed g c hgn h.nodup
  · intro k v hk
    rcases h.vals k v hk with ⟨h1, h2⟩ | h1
    · rw [updateVal_leaf _ h1, h2]
    · rw [h1]
      exact updateVals_self g hw hn k v h1
  · intro k hk
    rw [Fields.get_eq_none] at hk ⊢
    rw [he] at hk
    exact fun h' => hk (List.mem_append_left _ h')
  · have hd := h.nodup
    rw [he, List.nodup_append] at hd
    have : newKeys g.keys e = g.keys ++ e :=
      newKeys_disjoint _ _ hd.2.1 (fun s hs hs' => hd.2.2 s hs' s hs rfl)
    rw [he, ← this, newKeys_again _ _ hgn]

variable {K : Type} [Field K] [LinearOrder K] [IsStrictOrderedRing K] [FloorRing K]

/-! ## Building again -/

/-- A checked estimation section is built. -/
theorem est_rebuilt {w : World K} {v c v' : J} (hw : v.wf) (hc : Checked w.steps "estimation" v.convAll c)
    (hu : updateVal (some v.convAll) c = .ok v') : ∃ rr rc sf, buildEstimation w v' = .ok (.estimation rr rc sf) := by
  simp only [Checked, String.reduceEq, false_and, true_and, or_false] at hc
  have hc' : estimationCheck w.env.boolIsInt v.convAll = .ok c := by simpa only [World.steps, stepsOf] using hc
  have inv : ∃ f, v.convAll = .obj f ∧ c = .obj (fillEstimation f) ∧ estimationSchema w.env.boolIsInt (.obj (fillEstimation f)) = true := by
    cases hv : v.convAll with
    | obj f =>
      rw [hv] at hc'
      simp only [estimationCheck] at hc'
      split at hc'
      · simp at hc'
      · split_ifs at hc' with _ hs
        exact ⟨f, rfl, (Except.ok.inj hc').symm, hs⟩
      · simp at hc'
    | _ => rw [hv] at hc'; simp [estimationCheck] at hc'
  obtain ⟨fc, h1, rfl, hs⟩ := inv
  obtain ⟨f, rfl, rfl⟩ := convAll_eq_obj h1
  have hfw : f.convAll.wf := convAlls_wf f (by simpa [J.wf] using hw)
  have hfill : Fills f.convAll (fillEstimation f.convAll) := by
    unfold fillEstimation
    exact (((Fills.refl (Fields.wf_keys _ hfw)).setDefault _ _ rfl rfl).setDefault _ _ rfl rfl).setDefault _ _ rfl rfl
  have hv' : v' = .obj (fillEstimation f.convAll) := by
    simp only [J.convAll, updateVal, hfill.merge hfw (convAlls_normal f), Except.map, Except.ok.injEq] at hu
    exact hu.symm
  subst hv'
  have hagain := C38_estimation _ _ _ hc'
  unfold estimationSchema at hs
  rw [dictOf_iff] at hs
  obtain ⟨a, ha, ha'⟩ := hs.2 _ (List.mem_cons_of_mem _ List.mem_cons_self)
  obtain ⟨b, hb, hb'⟩ := hs.2 _ (List.mem_cons_of_mem _ (List.mem_cons_of_mem _ List.mem_cons_self))
  obtain ⟨e, he, he'⟩ := hs.2 _ (List.mem_cons_of_mem _ (List.mem_cons_of_mem _ (List.mem_cons_of_mem _ List.mem_cons_self)))
  simp only at ha hb he ha' hb' he'
  rw [intAnd_iff] at ha' hb' he'
  obtain ⟨x, hx, -⟩ := ha'
  obtain ⟨y, hy, -⟩ := hb'
  obtain ⟨z, hz, hz'⟩ := he'
  have hz0 : 0 ≤ z := by
    simp only [Bool.and_eq_true, decide_eq_true_eq] at hz'
    omega
  obtain ⟨n, rfl⟩ := Int.eq_ofNat_of_zero_le hz0
  refine ⟨x, y, n, ?_⟩
  unfold buildEstimation
  simp only [hagain, bind, Except.bind, asObj, item, ha, hb, he, (asInt_iff _ _).2 (isInt_true hx), (asInt_iff _ _).2 (isInt_true hy),
    (asNat_iff _ _).2 (isInt_true hz), pure, Except.pure]

/-- A checked disparity section is built. -/
theorem disp_rebuilt {w : World K} {v c v' : J} (hw : v.wf) (hc : Checked w.steps "disparity" v.convAll c)
    (hu : updateVal (some v.convAll) c = .ok v') : ∃ x, buildDisparity w v' = .ok (.disparity x) := by
  simp only [Checked, String.reduceEq, false_and, true_and, false_or, or_false] at hc
  obtain ⟨mar, hc⟩ := hc
  have hc' : disparityCheck w.env.boolIsInt v.convAll = .ok c := by
    simp only [World.steps, stepsOf, Except.map] at hc
    split at hc
    · simp at hc
    · simp only [Except.ok.injEq, Prod.mk.injEq] at hc
      rename_i h
      rw [h, hc.1]
  have inv : ∃ f, v.convAll = .obj f ∧ c = .obj (fillInvalid f) ∧ disparitySchema w.env.boolIsInt (.obj (fillInvalid f)) = true := by
    cases hv : v.convAll with
    | obj f =>
      rw [hv] at hc'
      simp only [disparityCheck] at hc'
      split_ifs at hc' with hs
      exact ⟨f, rfl, (Except.ok.inj hc').symm, hs⟩
    | _ => rw [hv] at hc'; simp [disparityCheck] at hc'
  obtain ⟨fc, h1, rfl, hs⟩ := inv
  obtain ⟨f, rfl, rfl⟩ := convAll_eq_obj h1
  have hfw : f.convAll.wf := convAlls_wf f (by simpa [J.wf] using hw)
  have hfill : Fills f.convAll (fillInvalid f.convAll) := by
    have h0 := Fills.refl (Fields.wf_keys _ hfw)
    unfold fillInvalid
    split
    · exact h0.set _ _ rfl rfl
    · split_ifs
      · exact h0.set _ _ rfl rfl
      · exact h0
    · exact h0
  have hv' : v' = .obj (fillInvalid f.convAll) := by
    simp only [J.convAll, updateVal, hfill.merge hfw (convAlls_normal f), Except.map, Except.ok.injEq] at hu
    exact hu.symm
  subst hv'
  have hagain := C38_disparity _ _ _ hc'
  unfold disparitySchema at hs
  rw [dictOf_iff] at hs
  obtain ⟨a, ha, ha'⟩ := hs.2 _ (List.mem_cons_of_mem _ List.mem_cons_self)
  simp only at ha ha'
  have hf : ∃ x : F K, asFloat a = .ok x := by
    rw [Bool.or_eq_true, Option.isSome_iff_exists] at ha'
    rcases ha' with ⟨i, hi⟩ | hb
    · rcases isInt_true ((intVal_iff _ _ _).1 hi) with rfl | ⟨-, ⟨rfl, -⟩ | ⟨rfl, -⟩⟩ <;> exact ⟨_, rfl⟩
    · cases a with
      | float y => cases y <;> exact ⟨_, rfl⟩
      | _ => simp at hb
  obtain ⟨x, hx⟩ := hf
  refine ⟨x, ?_⟩
  unfold buildDisparity
  simp only [hagain, bind, Except.bind, asObj, item, ha, hx, pure, Except.pure]

/-- What is assumed of Pandora's matching cost: its window size, subpixel factor and spline order are integers, the subpixel factor is a
power of two, and given back the values it has chosen, with the other values of the section, Pandora chooses the same. -/
structure PandoraKeeps (pandora : PandoraMc Margins) : Prop where
  numbers : ∀ f a s b m, pandora f = .ok (a, s, b, m) → (∃ n, IsInt true a n) ∧ (∃ k : Nat, IsInt true s ((2 ^ k : Nat) : Int)) ∧ ∃ n, IsInt true b n
  again : ∀ f g a s b m, pandora f = .ok (a, s, b, m) → g.get "window_size" = some a → g.get "subpix" = some s →
    g.get "spline_order" = some b → (∀ k, k ≠ "window_size" → k ≠ "subpix" → k ≠ "spline_order" → g.get k = f.get k) →
    pandora g = .ok (a, s, b, m)

theorem isInt_leaf {v : J} {n : Int} (h : IsInt true v n) : v.isLeaf = true ∧ conv v = v := by
  rcases h with rfl | ⟨-, ⟨rfl, -⟩ | ⟨rfl, -⟩⟩ <;> exact ⟨rfl, rfl⟩

/-- A checked matching cost section with integer steps is built: the matching cost is the one of the check. -/
theorem mc_rebuilt_exact {w : World K} (hp : PandoraKeeps w.pandora) {f : Fields} {c v' : J} {sr sc : Nat}
    (hc : Checked w.steps "matching_cost" (J.obj f).convAll c)
    (hu : updateVal (some (J.obj f).convAll) c = .ok v') (hs : StepIs f sr sc) :
    ∃ k, buildMatchingCost w v' = .ok (.matchingCost ⟨2 ^ k, sr, sc, w.measure c⟩ (w.offset c) (w.cost c)) ∧
      SubpixIs w f (2 ^ k) := by
  simp only [Checked, String.reduceEq, false_and, true_and, false_or, or_false] at hc
  obtain ⟨st, wn, mar, hc⟩ := hc
  have hc : matchingCostCheck w.pandora (.obj f.convAll) = .ok (c, st, wn, mar) := hc
  have hc0 := hc
  simp only [matchingCostCheck] at hc
  cases hm : f.convAll.get "matching_cost_method" with
  | none => rw [hm] at hc; simp at hc
  | some method =>
    rw [hm] at hc
    simp only at hc
    split_ifs at hc with hsch
    obtain ⟨a, b, hst, ha, hb⟩ : ∃ a b, (f.convAll.get "step").getD (.arr (.cons (.int 1) (.cons (.int 1) .nil))) =
        .arr (.cons a (.cons b .nil)) ∧ IsInt true a sr ∧ IsInt true b sc := by
      rw [Fields.get_convAll]
      rcases hs with ⟨a, b, h1, h2, h3⟩ | ⟨h1, rfl, rfl⟩
      · exact ⟨a, b, by rw [h1]; rfl, h2, h3⟩
      · exact ⟨.int 1, .int 1, by rw [h1]; rfl, Or.inl rfl, Or.inl rfl⟩
    rw [hst] at hc hsch
    simp only at hc
    split at hc
    · simp at hc
    · rename_i wn' sub spl mar' hpan
      simp only [Except.ok.injEq, Prod.mk.injEq] at hc
      obtain ⟨rfl, rfl, rfl, rfl⟩ := hc
      obtain ⟨⟨n1, i1⟩, ⟨k, i2⟩, ⟨n3, i3⟩⟩ := hp.numbers _ _ _ _ _ hpan
      obtain ⟨g', rfl, hg'⟩ := updateVal_obj hu
      have hcn : (Fields.cons "matching_cost_method" method (.cons "step" (.arr (.cons a (.cons b .nil)))
              (.cons "window_size" wn' (.cons "subpix" sub (.cons "spline_order" spl .nil))))).keys.Nodup := by simp [Fields.keys]
      have hmeth : method.isLeaf = true ∧ conv method = method := by
        rw [Bool.and_eq_true] at hsch
        have h1 := hsch.1
        have h2 := Fields.normal_get _ (convAlls_normal f) hm
        cases method with
        | str s => exact ⟨rfl, by simpa [J.normal] using h2⟩
        | _ => simp [strIn] at h1
      have lf : ∀ k v, (Fields.cons "matching_cost_method" method (.cons "step" (.arr (.cons a (.cons b .nil)))
              (.cons "window_size" wn' (.cons "subpix" sub (.cons "spline_order" spl .nil))))).get k = some v →
          v.isLeaf = true → conv v = v → g'.get k = some v := by
        intro k v hk hl hv
        rw [merged_leaf hcn hg' hk hl, hv]
      have g1 : g'.get "matching_cost_method" = some method := lf _ _ (by simp [Fields.get]) hmeth.1 hmeth.2
      have g2 : g'.get "step" = some (.arr (.cons a (.cons b .nil))) := lf _ _ (by simp [Fields.get]) rfl rfl
      have g3 : g'.get "window_size" = some wn' := lf _ _ (by simp [Fields.get]) (isInt_leaf i1).1 (isInt_leaf i1).2
      have g4 : g'.get "subpix" = some sub := lf _ _ (by simp [Fields.get]) (isInt_leaf i2).1 (isInt_leaf i2).2
      have g5 : g'.get "spline_order" = some spl := lf _ _ (by simp [Fields.get]) (isInt_leaf i3).1 (isInt_leaf i3).2
      have hag : w.pandora (g'.set "step" b) = .ok (wn', sub, spl, mar') := by
        refine hp.again _ _ _ _ _ _ hpan ?_ ?_ ?_ ?_
        · rw [Fields.get_set, if_neg (by decide)]; exact g3
        · rw [Fields.get_set, if_neg (by decide)]; exact g4
        · rw [Fields.get_set, if_neg (by decide)]; exact g5
        · intro k h1 h2 h3
          rw [Fields.get_set, Fields.get_set]
          split_ifs with e
          · rfl
          · by_cases hk : k = "matching_cost_method"
            · subst hk; rw [g1, hm]
            · have hnone : (Fields.cons "matching_cost_method" method (.cons "step" (.arr (.cons a (.cons b .nil)))
                  (.cons "window_size" wn' (.cons "subpix" sub (.cons "spline_order" spl .nil))))).get k = none := by
                rw [Fields.get_eq_none]
                simp [Fields.keys, hk, h1, h2, h3, Ne.symm e]
              exact (updateConf_get _ _ _ hcn hg' k).1 hnone
      have hchk : matchingCostCheck w.pandora (.obj g') = .ok (.obj (.cons "matching_cost_method" method
          (.cons "step" (.arr (.cons a (.cons b .nil))) (.cons "window_size" wn' (.cons "subpix" sub (.cons "spline_order" spl .nil))))),
          .arr (.cons a (.cons b .nil)), wn', mar') := by
        simp only [matchingCostCheck, g1, g2, Option.getD_some]
        rw [if_pos hsch, hag]
      refine ⟨k, ?_, _, _, _, _, _, _, hc0, rfl, by simp [Fields.get], i2⟩
      unfold buildMatchingCost
      simp only [hchk, bind, Except.bind, asObj, item, Fields.get, if_true, if_false, String.reduceEq,
        (asNat_iff _ _).2 i2, (asPair_iff _ (sr, sc)).2 ⟨a, b, rfl, ha, hb⟩, pure, Except.pure]

/-- A checked matching cost section with integer steps is built. -/
theorem mc_rebuilt {w : World K} (hp : PandoraKeeps w.pandora) {f : Fields} {c v' : J} {sr sc : Nat}
    (hc : Checked w.steps "matching_cost" (J.obj f).convAll c)
    (hu : updateVal (some (J.obj f).convAll) c = .ok v') (hs : StepIs f sr sc) :
    ∃ me k, ∃ cost : Pandora.Cost K, buildMatchingCost w v' = .ok (.matchingCost ⟨2 ^ k, sr, sc, me⟩ (w.offset c) cost) ∧
      SubpixIs w f (2 ^ k) := by
  obtain ⟨k, h, h'⟩ := mc_rebuilt_exact hp hc hu hs
  exact ⟨_, k, _, h, h'⟩

/-- The filter of a dichotomy with the margins recorded by its check. -/
def FilterWithMargins (w : World K) (it : Nat) (flt : Filters.IFilter K) (mg : Margins) : Prop :=
  (flt = Filters.bicubic ∧ mg = Dichotomy.bicubicMargins) ∨ ∃ n, 6 ≤ n ∧ n ≤ 21 ∧ flt = w.sinc n (2 ^ it) ∧ mg = Dichotomy.sincMargins n

/-- The filter and the margins of a dichotomy whose section is `f`. -/
def FilterAsked (w : World K) (f : Fields) (it : Nat) (flt : Filters.IFilter K) (mg : Margins) : Prop :=
  ∃ g, f.get "filter" = some (.obj g) ∧
    ((g.get "method" = some (.str "bicubic") ∧ flt = Filters.bicubic ∧ mg = Dichotomy.bicubicMargins) ∨
     (g.get "method" = some (.str "sinc") ∧ ∃ n : Nat, 6 ≤ n ∧ n ≤ 21 ∧ IsInt true ((g.get "size").getD (.int 6)) n ∧
        flt = w.sinc n (2 ^ it) ∧ mg = Dichotomy.sincMargins n))

/-- A checked dichotomy section is built with the filter of this section; its margins are those of this filter. -/
theorem dicho_rebuilt_exact {w : World K} {a : Machine.Attrs J Margins} {f : Fields} {c v' : J} {st wn : Option J} (hw : f.wf)
    (hm : f.get "refinement_method" = some (.str "dichotomy"))
    (hc : refinementCheck w.env.boolIsInt (J.obj f).convAll st wn = .ok c) (hu : updateVal (some (J.obj f).convAll) c = .ok v') :
    ∃ it flt, it ≤ 9 ∧ buildRefinement w a v' = .ok (.dichotomy flt it) ∧ FilterAsked w f it flt (refMargins c) ∧
      IterationsIs f it := by
  have hm' : f.convAll.get "refinement_method" = some (.str "dichotomy") := by
    rw [Fields.get_convAll, hm]
    simp [J.convAll, conv]
  have hc0 := hc
  simp only [J.convAll, refinementCheck, hm', if_true] at hc
  have hfw : f.convAll.wf := convAlls_wf f hw
  unfold dichotomyCheck at hc
  split_ifs at hc with hs
  have hcap : Fills f.convAll (capIterations f.convAll) := by
    have h0 := Fills.refl (Fields.wf_keys _ hfw)
    unfold capIterations
    split
    · split_ifs
      · exact h0.set _ _ rfl rfl
      · exact h0
    · exact h0
  have keep : ∀ k, k ≠ "iterations" → (capIterations f.convAll).get k = f.convAll.get k := by
    intro k hk
    unfold capIterations
    split
    · split_ifs
      · rw [Fields.get_set, if_neg (Ne.symm hk)]
      · rfl
    · rfl
  cases hfl : (capIterations f.convAll).get "filter" with
  | none => rw [hfl] at hc; simp at hc
  | some fl =>
    rw [hfl] at hc
    simp only at hc
    split at hc
    · simp at hc
    · rename_i hfc
      have hcc := (Except.ok.inj hc).symm
      have hv' : v' = .obj (capIterations f.convAll) := by
        rw [hcc] at hu
        simp only [J.convAll, updateVal, hcap.merge hfw (convAlls_normal f), Except.map, Except.ok.injEq] at hu
        exact hu.symm
      subst hv'
      -- the check of the run
      have hagain : refinementCheck w.env.boolIsInt (.obj (capIterations f.convAll)) a.step a.windowSize =
          .ok (.obj (capIterations f.convAll)) := by
        simp only [refinementCheck, keep "refinement_method" (by decide), hm', if_true]
        unfold dichotomyCheck
        rw [if_pos (capIterations_schema _ _ hs), capIterations_again, hfl]
        simp only [hfc]
      -- the iterations
      have hit : ∃ x : J, ∃ n : Nat, (capIterations f.convAll).get "iterations" = some x ∧ IsInt true x n ∧ n ≤ 9 ∧
          IterationsIs f n := by
        unfold dichotomySchema at hs
        rw [dictOf_iff] at hs
        obtain ⟨x, hx, hx'⟩ := hs.2 _ (List.mem_cons_of_mem _ List.mem_cons_self)
        simp only at hx hx'
        rw [intAnd_iff] at hx'
        obtain ⟨i, hi, hi'⟩ := hx'
        simp only [decide_eq_true_eq] at hi'
        have hp := pyInt_of (isInt_true hi)
        obtain ⟨u, hu1, rfl⟩ : ∃ u, f.get "iterations" = some u ∧ u.convAll = x := by
          rw [Fields.get_convAll, Option.map_eq_some_iff] at hx
          exact hx
        have hui : IsInt true u i := isInt_convAll.1 (isInt_true hi)
        obtain ⟨n, rfl⟩ := Int.eq_ofNat_of_zero_le (show 0 ≤ i by omega)
        unfold capIterations
        rw [hx]
        simp only
        split_ifs with hgt
        · unfold nbMaxIter at hgt
          exact ⟨.int nbMaxIter, 9, by rw [Fields.get_set, if_pos rfl], Or.inl rfl, le_refl _, u, n, hu1, hui, by omega⟩
        · unfold nbMaxIter at hgt
          exact ⟨_, n, hx, isInt_true hi, by omega, u, n, hu1, hui, by omega⟩
      obtain ⟨x, it, hx, hxi, hle, hasked⟩ := hit
      -- the filter
      have hflt : ∃ flt, buildFilter w it fl = .ok flt ∧ FilterAsked w f it flt (filterMargins fl) := by
        cases fl with
        | obj g =>
          obtain ⟨g0, hg0, rfl⟩ : ∃ g0, f.get "filter" = some (.obj g0) ∧ g0.convAll = g := by
            rw [keep "filter" (by decide), Fields.get_convAll, Option.map_eq_some_iff] at hfl
            obtain ⟨u, hu1, hu2⟩ := hfl
            obtain ⟨g0, rfl, rfl⟩ := convAll_eq_obj hu2
            exact ⟨g0, hu1, rfl⟩
          simp only [filterCheck] at hfc
          split at hfc
          · simp at hfc
          · rename_i s hms
            have hms0 : g0.get "method" = some (.str s) := by
              have h := hms
              rw [Fields.get_convAll, Option.map_eq_some_iff] at h
              obtain ⟨u, hu1, hu2⟩ := h
              rw [hu1, convAll_eq_str hu2]
            have hsz0 : (g0.convAll.get "size").getD (.int 6) = ((g0.get "size").getD (.int 6)).convAll := by
              rw [Fields.get_convAll]
              cases g0.get "size" <;> rfl
            split_ifs at hfc with e1 e2 e3 e4
            · subst e1
              refine ⟨Filters.bicubic, ?_, g0, hg0, Or.inl ⟨hms0, rfl, ?_⟩⟩
              · simp [buildFilter, asObj, hms, bind, Except.bind, pure, Except.pure]
              · simp [filterMargins, hms]
            · subst e3
              have hsz : ∃ n : Nat, 6 ≤ n ∧ n ≤ 21 ∧ IsInt true ((g0.convAll.get "size").getD (.int 6)) n := by
                cases hg : g0.convAll.get "size" with
                | none => exact ⟨6, by omega, by omega, Or.inl rfl⟩
                | some y =>
                  rw [dictOpt_iff] at e4
                  have h := e4.2.2 _ List.mem_cons_self y hg
                  simp only at h
                  rw [intAnd_iff] at h
                  obtain ⟨i, hi, hi'⟩ := h
                  simp only [Bool.and_eq_true, decide_eq_true_eq] at hi'
                  obtain ⟨n, rfl⟩ := Int.eq_ofNat_of_zero_le (show 0 ≤ i by omega)
                  exact ⟨n, by omega, by omega, isInt_true hi⟩
              obtain ⟨n, h6, h21, hn⟩ := hsz
              refine ⟨w.sinc n (2 ^ it), ?_, g0, hg0, Or.inr ⟨hms0, n, h6, h21, isInt_convAll.1 (by rw [← hsz0]; exact hn), rfl, ?_⟩⟩
              · simp [buildFilter, asObj, hms, bind, Except.bind, pure, Except.pure, (asNat_iff _ _).2 hn]
              · simp [filterMargins, hms, pyInt_of hn]
          · simp at hfc
        | _ => simp [filterCheck] at hfc
      obtain ⟨flt, hb, hfm⟩ := hflt
      refine ⟨it, flt, hle, ?_, ?_, hasked⟩
      · unfold buildRefinement
        simp only [hagain, bind, Except.bind, asObj, item, keep "refinement_method" (by decide), hm', if_true, hx, hfl,
          (asNat_iff _ _).2 hxi, hb, pure, Except.pure]
      · rw [hcc]
        simp only [refMargins, keep "refinement_method" (by decide), hm', if_true, hfl, Option.getD_some]
        exact hfm

/-- A checked dichotomy section is built; its margins are those of its filter. -/
theorem dicho_rebuilt {w : World K} {a : Machine.Attrs J Margins} {f : Fields} {c v' : J} {st wn : Option J} (hw : f.wf)
    (hm : f.get "refinement_method" = some (.str "dichotomy"))
    (hc : refinementCheck w.env.boolIsInt (J.obj f).convAll st wn = .ok c) (hu : updateVal (some (J.obj f).convAll) c = .ok v') :
    ∃ it flt, it ≤ 9 ∧ buildRefinement w a v' = .ok (.dichotomy flt it) ∧ FilterWithMargins w it flt (refMargins c) ∧
      IterationsIs f it := by
  obtain ⟨it, flt, h1, h2, ⟨g, -, h3⟩, h4⟩ := dicho_rebuilt_exact hw hm hc hu
  refine ⟨it, flt, h1, h2, ?_, h4⟩
  rcases h3 with ⟨-, h3⟩ | ⟨-, n, n1, n2, -, h3⟩
  · exact .inl h3
  · exact .inr ⟨n, n1, n2, h3⟩

/-- A checked interpolation section is built. -/
theorem interp_rebuilt {w : World K} {a : Machine.Attrs J Margins} {f : Fields} {c v' : J} {st wn : Option J} (hw : f.wf)
    (hm : f.get "refinement_method" = some (.str "interpolation"))
    (hc : refinementCheck w.env.boolIsInt (J.obj f).convAll st wn = .ok c) (hu : updateVal (some (J.obj f).convAll) c = .ok v') :
    buildRefinement w a v' = .ok .interpolation ∧ refMargins c = ⟨3, 3, 3, 3⟩ := by
  have hm' : f.convAll.get "refinement_method" = some (.str "interpolation") := by
    rw [Fields.get_convAll, hm]
    simp [J.convAll, conv]
  simp only [J.convAll, refinementCheck, hm', String.reduceEq, if_false, if_true] at hc
  have hfw : f.convAll.wf := convAlls_wf f hw
  unfold interpolationCheck at hc
  split_ifs at hc with hs
  have hcc := (Except.ok.inj hc).symm
  have hv' : v' = .obj f.convAll := by
    rw [hcc] at hu
    simp only [J.convAll, updateVal, (Fills.refl (Fields.wf_keys _ hfw)).merge hfw (convAlls_normal f), Except.map, Except.ok.injEq] at hu
    exact hu.symm
  subst hv'
  constructor
  · unfold buildRefinement
    simp only [refinementCheck, hm', String.reduceEq, if_false, if_true, interpolationCheck, if_pos hs, bind, Except.bind, asObj,
      Option.some.injEq, J.str.injEq, pure, Except.pure]
  · rw [hcc]
    simp only [refMargins, hm', Option.some.injEq, J.str.injEq, String.reduceEq, if_false]

/-- A checked optical flow section is built, with the window of the matching cost. -/
theorem flow_rebuilt {w : World K} {a : Machine.Attrs J Margins} {f : Fields} {c v' st wn : J} (hw : f.wf)
    (hm : f.get "refinement_method" = some (.str "optical_flow")) (h1 : a.step = some st) (h2 : a.windowSize = some wn)
    (hl : st.isLeaf = true ∧ conv st = st)
    (hc : refinementCheck w.env.boolIsInt (J.obj f).convAll (some st) (some wn) = .ok c)
    (hu : updateVal (some (J.obj f).convAll) c = .ok v') :
    ∃ half it : Nat, 1 ≤ half ∧ IsInt true wn ((2 * half + 1 : Nat) : Int) ∧
      buildRefinement w a v' = .ok (.opticalFlow ⟨2 * half + 1, it⟩) ∧ FlowIterationsIs f it := by
  have hm' : f.convAll.get "refinement_method" = some (.str "optical_flow") := by
    rw [Fields.get_convAll, hm]
    simp [J.convAll, conv]
  have hfw : f.convAll.wf := convAlls_wf f hw
  have hvw : (J.obj f).convAll.wf := by simpa [J.convAll, J.wf] using hfw
  have hagain := C38_refinement _ _ _ _ _ hvw hc
  simp only [J.convAll, refinementCheck, hm', String.reduceEq, if_false, if_true] at hc
  unfold opticalFlowCheck at hc
  split_ifs at hc with hs
  have hcc := (Except.ok.inj hc).symm
  have hs0 := hs
  unfold opticalFlowSchema at hs
  rw [dictOf_iff] at hs
  obtain ⟨x, hx, hx'⟩ := hs.2 _ (List.mem_cons_of_mem _ List.mem_cons_self)
  obtain ⟨y, hy, hy'⟩ := hs.2 _ (List.mem_cons_of_mem _ (List.mem_cons_of_mem _ List.mem_cons_self))
  simp only at hx hy hx' hy'
  have g1 : (fillOpticalFlow f.convAll (some st) (some wn)).get "window_size" = some wn := by
    unfold fillOpticalFlow
    apply setDefault_keeps
    rw [Fields.get_set, if_neg (by decide), Fields.get_set, if_pos rfl]
    rfl
  have g2 : (fillOpticalFlow f.convAll (some st) (some wn)).get "refinement_method" = some (.str "optical_flow") := by
    unfold fillOpticalFlow
    apply setDefault_keeps
    rw [Fields.get_set, if_neg (by decide), Fields.get_set, if_neg (by decide)]
    exact hm'
  rw [g1, Option.some.injEq] at hy
  subst hy
  rw [intAnd_iff] at hx' hy'
  obtain ⟨i, hi, hi'⟩ := hx'
  obtain ⟨n, hn, hn'⟩ := hy'
  simp only [Bool.and_eq_true, decide_eq_true_eq] at hi' hn'
  obtain ⟨it, rfl⟩ := Int.eq_ofNat_of_zero_le (show 0 ≤ i by omega)
  obtain ⟨half, hhalf⟩ : ∃ half : Nat, n = ((2 * half + 1 : Nat) : Int) := ⟨(n / 2).toNat, by omega⟩
  subst hhalf
  have hwn := isInt_leaf (isInt_true hn)
  have hfill : Fills f.convAll (fillOpticalFlow f.convAll (some st) (some wn)) := by
    unfold fillOpticalFlow
    exact (((Fills.refl (Fields.wf_keys _ hfw)).set _ _ hwn.1 hwn.2).set _ _ hl.1 hl.2).setDefault _ _ rfl rfl
  have hv' : v' = .obj (fillOpticalFlow f.convAll (some st) (some wn)) := by
    rw [hcc] at hu
    simp only [J.convAll, updateVal, hfill.merge hfw (convAlls_normal f), Except.map, Except.ok.injEq] at hu
    exact hu.symm
  rw [hcc] at hagain
  have hasked : FlowIterationsIs f it := by
    cases hfi : f.get "iterations" with
    | some u =>
      have : (fillOpticalFlow f.convAll (some st) (some wn)).get "iterations" = some u.convAll := by
        unfold fillOpticalFlow
        apply setDefault_keeps
        rw [Fields.get_set, if_neg (by decide), Fields.get_set, if_neg (by decide), Fields.get_convAll, hfi]
        rfl
      rw [this, Option.some.injEq] at hx
      subst hx
      exact .inl ⟨u, hfi, isInt_convAll.1 (isInt_true hi)⟩
    | none =>
      have : (fillOpticalFlow f.convAll (some st) (some wn)).get "iterations" = some (.int 4) := by
        unfold fillOpticalFlow Fields.setDefault
        rw [Fields.get_set, if_neg (by decide), Fields.get_set, if_neg (by decide), Fields.get_convAll, hfi]
        simp only [Option.map_none]
        rw [Fields.get_set, if_pos rfl]
      rw [this, Option.some.injEq] at hx
      subst hx
      have h4 : ((it : Nat) : Int) = 4 := by
        rcases hi with h | ⟨-, ⟨h, -⟩ | ⟨h, -⟩⟩
        · injection h with h
          exact h.symm
        · simp at h
        · simp at h
      exact .inr ⟨hfi, by exact_mod_cast h4⟩
  refine ⟨half, it, by omega, isInt_true hn, ?_, hasked⟩
  rw [hv']
  unfold buildRefinement
  simp only [h1, h2, hagain, bind, Except.bind, asObj, item, g1, g2, hx, Option.some.injEq, J.str.injEq, String.reduceEq, if_false, if_true,
    (asNat_iff _ _).2 (isInt_true hi), (asNat_iff _ _).2 (isInt_true hn), pure, Except.pure]

theorem dictSet_find {α : Type} (d : List (String × α)) (k k' : String) (v : α) :
    (dictSet d k v).find? (fun p => decide (p.1 = k')) =
      if k = k' then some (k, v) else d.find? (fun p => decide (p.1 = k')) := by
  unfold dictSet
  split_ifs with h e e
  · subst e
    induction d with
    | nil => simp at h
    | cons x d ih =>
      by_cases hx : x.1 = k
      · simp [hx]
      · simp only [List.any_cons, hx, decide_false, Bool.false_or] at h
        simp [hx, ih h]
  · induction d with
    | nil => rfl
    | cons x d ih =>
      by_cases hx : x.1 = k
      · simp only [List.map_cons, hx, if_true, List.find?_cons, e, decide_false]
        by_cases hd : d.any (fun p => decide (p.1 = k)) = true
        · exact ih hd
        · have : d.map (fun p => if p.1 = k then (k, v) else p) = d := by
            conv_rhs => rw [← List.map_id d]
            apply List.map_congr_left
            intro y hy
            rw [if_neg, id]
            intro hy'
            apply hd
            rw [List.any_eq_true]
            exact ⟨y, hy, by simpa using hy'⟩
          rw [this]
      · simp only [List.any_cons, hx, decide_false, Bool.false_or] at h
        simp only [List.map_cons, hx, if_false, List.find?_cons]
        rw [ih h]
  · subst e
    rw [List.find?_append]
    simp only [Bool.not_eq_true, List.any_eq_false, decide_eq_true_eq] at h
    have : d.find? (fun p => decide (p.1 = k)) = none := by
      rw [List.find?_eq_none]
      intro x hx
      simpa using h x hx
    rw [this]
    simp
  · rw [List.find?_append]
    cases d.find? (fun p => decide (p.1 = k')) <;> simp [e]

/-- What a checked matching cost section contains: the window and the steps given to the refinement. -/
theorem mc_values {w : World K} {v c st wn : J} {mar : Margins} (h : matchingCostCheck w.pandora v = .ok (c, st, wn, mar)) :
    (st.isLeaf = true ∧ conv st = st) ∧ ∃ g, c = .obj g ∧ g.get "window_size" = some wn := by
  cases v with
  | obj f =>
    simp only [matchingCostCheck] at h
    split at h
    · simp at h
    · split_ifs at h
      split at h
      · split at h
        · simp at h
        · simp only [Except.ok.injEq, Prod.mk.injEq] at h
          obtain ⟨rfl, rfl, rfl, rfl⟩ := h
          rename_i hst _ _ _ _ _ _
          rw [hst]
          exact ⟨⟨rfl, rfl⟩, _, rfl, by simp [Fields.get]⟩
      · simp at h
  | _ => simp [matchingCostCheck] at h

theorem runCallbacks_step {D P : Type} {exec : Exec D P} {cfg : Pipeline P} {cb : Cb} {s : String} {l : List (Cb × String)} {d : D}
    (h : (runCallbacks exec cfg ((cb, s) :: l) d).2 = none) :
    ∃ d', exec cb cfg s d = (d', none) ∧ runCallbacks exec cfg ((cb, s) :: l) d = runCallbacks exec cfg l d' := by
  rw [runCallbacks] at h ⊢
  rcases he : exec cb cfg s d with ⟨d', _ | e⟩
  · exact ⟨d', rfl, rfl⟩
  · rw [he] at h
    simp at h

/-- The refinement is checked with the steps and the window of the matching cost, which are those of the machine after the check. -/
theorem checked_with {w : World K} {user p0 pl' : Fields} {m : Mach (Machine.Attrs J Margins)} (hw : user.wf)
    (hu : user.get "pipeline" = some (.obj p0))
    (h : checkPipelineJ w.steps user (fresh .init) = (m, .ok (.cons "pipeline" (.obj pl') .nil))) {v : J}
    (hv : p0.get "refinement" = some v) :
    ∃ vm cm st wn mar c, p0.get "matching_cost" = some vm ∧ matchingCostCheck w.pandora vm.convAll = .ok (cm, st, wn, mar) ∧
      m.data.step = some st ∧ m.data.windowSize = some wn ∧
      refinementCheck w.env.boolIsInt v.convAll (some st) (some wn) = .ok c ∧
      m.data.pipelineCfg.find? (fun p => decide (p.1 = "refinement")) = some ("refinement", c) := by
  obtain ⟨hwf, -, hn, hm, -⟩ := pipeline_new w.steps user p0 pl' m hw hu h
  have hpw : p0.wf := Fields.wf_get user hw hu
  have hd : p0.keys.Nodup := Fields.wf_keys p0 hpw
  have hdc : (toPipeline p0.convAll).map Prod.fst = p0.keys := by rw [toPipeline_keys, Fields.keys_convAll]
  have hlook : ∀ k x, lookup (toPipeline p0.convAll) k = .ok x → ∃ y, p0.get k = some y ∧ x = y.convAll := by
    intro k x hx
    have := (toPipeline_mem _ (by rw [Fields.keys_convAll]; exact hd) _ _).1 (lookup_ok hx)
    rw [Fields.get_convAll, Option.map_eq_some_iff] at this
    obtain ⟨y, hy, e⟩ := this
    exact ⟨y, hy, e.symm⟩
  have core : ∀ d : Machine.Attrs J Margins, ∀ r, runCallbacks (checkExec w.steps) (toPipeline p0.convAll)
      (checkPlan ["matching_cost", "disparity", "refinement"]) d = r → r.2 = none →
      ∃ vm cm st wn mar c, p0.get "matching_cost" = some vm ∧ matchingCostCheck w.pandora vm.convAll = .ok (cm, st, wn, mar) ∧
      r.1.step = some st ∧ r.1.windowSize = some wn ∧
      refinementCheck w.env.boolIsInt v.convAll (some st) (some wn) = .ok c ∧
      r.1.pipelineCfg.find? (fun p => decide (p.1 = "refinement")) = some ("refinement", c) := by
    intro d r hr h0
    subst hr
    have e : checkPlan ["matching_cost", "disparity", "refinement"] =
      [(.matchingCostCheck, "matching_cost"), (.disparityCheck, "disparity"), (.refinementCheck, "refinement")] := rfl
    rw [e] at h0 ⊢
    obtain ⟨d1, a1, b1⟩ := runCallbacks_step h0
    rw [b1] at h0 ⊢
    obtain ⟨d2, a2, b2⟩ := runCallbacks_step h0
    rw [b2] at h0 ⊢
    obtain ⟨d3, a3, b3⟩ := runCallbacks_step h0
    rw [b3] at h0 ⊢
    simp only [runCallbacks]
    simp only [checkExec] at a1 a2 a3
    split at a1
    · simp at a1
    rename_i cm st wn mar h1
    split at a2
    · simp at a2
    rename_i cd md h2
    split at a3
    · simp at a3
    rename_i c mr h3
    obtain ⟨vm, l1, h1⟩ := bind_eq_ok h1
    obtain ⟨vr, l3, h3⟩ := bind_eq_ok h3
    obtain ⟨y, hy, rfl⟩ := hlook _ _ l1
    obtain ⟨z, hz, rfl⟩ := hlook _ _ l3
    rw [hv, Option.some.injEq] at hz
    subst hz
    simp only [Prod.mk.injEq, and_true] at a1 a2 a3
    subst a1
    subst a2
    subst a3
    simp only [World.steps, stepsOf, Except.map] at h3
    split at h3
    · simp at h3
    rename_i c' h3'
    simp only [Except.ok.injEq, Prod.mk.injEq] at h3
    obtain ⟨rfl, -⟩ := h3
    refine ⟨y, cm, st, wn, mar, c', hy, h1, rfl, rfl, h3', ?_⟩
    simp only [dictSet_find, if_true]
  have hin : "refinement" ∈ p0.keys := Fields.mem_of_get hv
  obtain ⟨e, hk | hk | hk | hk⟩ := wellFormed_cases hwf hd
  · rw [hk] at hin; cases e <;> simp at hin
  · rw [hk] at hin; cases e <;> simp at hin
  · rw [hk] at hin; cases e <;> simp at hin
  · rw [hk] at hm hn
    cases e with
    | false =>
      simp only [Bool.false_eq_true, if_false, List.nil_append] at hm hn
      obtain ⟨vm, cm, st, wn, mar, c, q⟩ := core .init _ rfl hn
      exact ⟨vm, cm, st, wn, mar, c, by rw [hm]; exact q⟩
    | true =>
      simp only [if_true, List.cons_append, List.nil_append] at hm hn
      have e : checkPlan ["estimation", "matching_cost", "disparity", "refinement"] =
        (.estimationCheck, "estimation") :: checkPlan ["matching_cost", "disparity", "refinement"] := rfl
      rw [e] at hm hn
      obtain ⟨d1, a1, b1⟩ := runCallbacks_step hn
      rw [b1] at hm hn
      obtain ⟨vm, cm, st, wn, mar, c, q⟩ := core d1 _ rfl hn
      exact ⟨vm, cm, st, wn, mar, c, by rw [hm]; exact q⟩

end Verif.Props
