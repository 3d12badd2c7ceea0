import Verif.Lemmas.Json

/-!
# Updating a dictionary again
-/

namespace Verif

theorem Fields.normal_of : (f : Fields) → f.keys.Nodup → (∀ k v, f.get k = some v → v.normal) → f.normal
  | .nil, _, _ => trivial
  | .cons k v r, hn, h => by
    simp only [Fields.keys, List.nodup_cons] at hn
    simp only [Fields.normal]
    refine ⟨h k v (by simp [Fields.get]), Fields.normal_of r hn.2 (fun k' v' h' => h k' v' ?_)⟩
    have : k ≠ k' := fun e => hn.1 (e ▸ Fields.mem_of_get h')
    simp only [Fields.get]
    rw [if_neg this]
    exact h'

mutual
theorem convAll_of_normal : (v : J) → v.normal → v.convAll = v
  | .obj f, h => by
    simp only [J.normal] at h
    simp only [J.convAll, convAlls_of_normal f h]
  | .null, _ => rfl
  | .bool _, _ => rfl
  | .int _, _ => rfl
  | .float _, _ => rfl
  | .arr _, _ => rfl
  | .str _, h => by simpa only [J.normal, J.convAll] using h

theorem convAlls_of_normal : (f : Fields) → f.normal → f.convAll = f
  | .nil, _ => rfl
  | .cons k v r, h => by
    simp only [Fields.normal] at h
    simp only [Fields.convAll, convAll_of_normal v h.1, convAlls_of_normal r h.2]
end

theorem updateConf_normal_of (u d r : Fields) (hu : u.wf) (hd : d.wf) (hn : d.normal) (h : updateConf d u = .ok r)
    (hv : ∀ k v, u.get k = some v → ∀ w, updateVal (d.get k) v = .ok w → w.normal) : r.normal := by
  apply Fields.normal_of
  · rw [updateConf_keys u d r h]; exact newKeys_nodup _ _ (Fields.wf_keys d hd)
  · intro k v hk
    obtain ⟨i1, i2⟩ := updateConf_get u d r (Fields.wf_keys u hu) h k
    cases huk : u.get k with
    | none => exact Fields.normal_get d hn (i1 huk ▸ hk)
    | some x =>
      obtain ⟨w, a, b⟩ := i2 x huk
      rw [hk, Option.some.injEq] at b
      exact hv k x huk v (b ▸ a)

mutual
theorem updateVal_normal : (v : J) → v.wf → ∀ (old : Option J) (w : J), (∀ x, old = some x → x.wf ∧ x.normal) →
    updateVal old v = .ok w → w.normal
  | .obj f, hw, old, w, ho, h => by
    have hf : f.wf := by simpa [J.wf] using hw
    simp only [updateVal] at h
    cases old with
    | none =>
      simp only at h
      cases hu : updateConf .nil f with
      | error e => rw [hu] at h; simp [Except.map] at h
      | ok g =>
        rw [hu] at h
        simp only [Except.map, Except.ok.injEq] at h
        subst h
        exact updateConf_normal_of f .nil g hf trivial trivial hu
          (fun k v hk w' hv' => updateVals_normal f hf k v hk _ w' (by simp [Fields.get]) hv')
    | some x =>
      obtain ⟨hxw, hxn⟩ := ho x rfl
      cases x with
      | obj g0 =>
        simp only at h
        have hg0 : g0.wf := by simpa [J.wf] using hxw
        have hg0n : g0.normal := by simpa [J.normal] using hxn
        cases hu : updateConf g0 f with
        | error e => rw [hu] at h; simp [Except.map] at h
        | ok g =>
          rw [hu] at h
          simp only [Except.map, Except.ok.injEq] at h
          subst h
          exact updateConf_normal_of f g0 g hf hg0 hg0n hu (fun k v hk w' hv' => updateVals_normal f hf k v hk _ w'
              (fun x hx => ⟨Fields.wf_get g0 hg0 hx, Fields.normal_get g0 hg0n hx⟩) hv')
      | _ =>
        simp only at h
        cases f with
        | nil =>
          simp only [Except.ok.injEq] at h
          subst h
          exact hxn
        | cons => simp at h
  | .null, _, old, w, _, h => by rw [updateVal_leaf old rfl] at h; cases h; rfl
  | .bool _, _, old, w, _, h => by rw [updateVal_leaf old rfl] at h; cases h; rfl
  | .int _, _, old, w, _, h => by rw [updateVal_leaf old rfl] at h; cases h; rfl
  | .float _, _, old, w, _, h => by rw [updateVal_leaf old rfl] at h; cases h; rfl
  | .arr _, _, old, w, _, h => by rw [updateVal_leaf old rfl] at h; cases h; rfl
  | .str s, hw, old, w, _, h => by
    rw [updateVal_leaf old rfl] at h
    cases h
    simp only [conv]
    split_ifs with h1 h2 h3
    · rfl
    · rfl
    · rfl
    · simp only [J.normal, conv, if_neg h1, if_neg h2, if_neg h3]

theorem updateVals_normal : (f : Fields) → f.wf → ∀ k v, f.get k = some v → ∀ (old : Option J) (w : J),
    (∀ x, old = some x → x.wf ∧ x.normal) → updateVal old v = .ok w → w.normal
  | .nil, _, k, v, h, _, _, _, _ => by simp [Fields.get] at h
  | .cons k₀ v₀ r, hw, k, v, h, old, w, ho, hv => by
    simp only [Fields.wf] at hw
    simp only [Fields.get] at h
    split_ifs at h with e
    · have e' : v₀ = v := Option.some.inj h
      rw [← e'] at hv
      exact updateVal_normal v₀ hw.2.1 old w ho hv
    · exact updateVals_normal r hw.2.2 k v h old w ho hv
end

theorem updateConf_normal (u d r : Fields) (hu : u.wf) (hd : d.wf) (hn : d.normal) (h : updateConf d u = .ok r) : r.normal :=
  updateConf_normal_of u d r hu hd hn h fun k v hk w hv =>
    updateVals_normal u hu k v hk _ w (fun _ hx => ⟨Fields.wf_get d hd hx, Fields.normal_get d hn hx⟩) hv

theorem newKeys_filter (ks l : List String) (hl : l.Nodup) : newKeys ks l = ks ++ l.filter (fun k => decide (k ∉ ks)) := by
  induction l generalizing ks with
  | nil => simp [newKeys]
  | cons s l ih =>
    rw [List.nodup_cons] at hl
    show newKeys (if s ∈ ks then ks else ks ++ [s]) l = _
    split_ifs with h
    · rw [ih _ hl.2, List.filter_cons_of_neg (by simpa using h)]
    · rw [ih _ hl.2, List.filter_cons_of_pos (by simpa using h), List.append_assoc]
      congr 1
      show s :: _ = s :: _
      congr 1
      apply List.filter_congr
      intro x hx
      have : x ≠ s := fun e => hl.1 (e ▸ hx)
      simp [this]

/-- A dictionary completed by two sets of defaults without common key is unchanged when it is completed again. -/
theorem two_defaults (d e u c r : Fields) (hu : u.wf) (hd : d.wf) (hdn : d.normal) (he : e.wf) (hen : e.normal)
    (hdis : ∀ k ∈ d.keys, k ∉ e.keys) (h1 : updateConf d u = .ok c) (h2 : updateConf e c = .ok r) :
    ∃ c2, updateConf d r = .ok c2 ∧ updateConf e c2 = .ok r := by
  have hcw := updateConf_wf u d c hu hd h1
  have hcn := updateConf_normal u d c hu hd hdn h1
  have hrw := updateConf_wf c e r hcw he h2
  have hrn := updateConf_normal c e r hcw he hen h2
  have a1 := updateConf_again u d c hu hd hdn h1
  have a2 := updateConf_again c e r hcw he hen h2
  have hck := Fields.wf_keys c hcw
  have hrk := Fields.wf_keys r hrw
  have hdk := Fields.wf_keys d hd
  have hek := Fields.wf_keys e he
  -- each value of `r` is left by the two updates
  have fix_d : ∀ k x, r.get k = some x → updateVal (d.get k) x = .ok x := by
    intro k x hx
    by_cases hk : k ∈ e.keys
    · have : d.get k = none := (Fields.get_eq_none _ _).2 fun h => hdis k h hk
      rw [this, updateVal_none x (Fields.wf_get r hrw hx), convAll_of_normal x (Fields.normal_get r hrn hx)]
    · obtain ⟨i1, i2⟩ := updateConf_get c e r hck h2 k
      have hen' : e.get k = none := (Fields.get_eq_none _ _).2 hk
      cases hc : c.get k with
      | none => rw [i1 hc, hen'] at hx; simp at hx
      | some y =>
        obtain ⟨v', p, q⟩ := i2 y hc
        rw [hen', updateVal_none y (Fields.wf_get c hcw hc), convAll_of_normal y (Fields.normal_get c hcn hc), Except.ok.injEq] at p
        subst p
        rw [hx, Option.some.injEq] at q
        subst q
        obtain ⟨v', p, q⟩ := (updateConf_get c d c hck a1 k).2 x hc
        rw [hc, Option.some.injEq] at q
        rw [p, q]
  have fix_e : ∀ k x, r.get k = some x → updateVal (e.get k) x = .ok x := by
    intro k x hx
    obtain ⟨v', p, q⟩ := (updateConf_get r e r hrk a2 k).2 x hx
    rw [hx, Option.some.injEq] at q
    rw [p, q]
  obtain ⟨c2, h3⟩ := updateConf_ok r d hrk fun k v hk => ⟨v, fix_d k v hk⟩
  have hc2 : ∀ k, c2.get k = r.get k := by
    intro k
    obtain ⟨i1, i2⟩ := updateConf_get r d c2 hrk h3 k
    cases hk : r.get k with
    | none =>
      rw [i1 hk]
      refine (Fields.get_eq_none _ _).2 fun hdk' => ?_
      have : k ∈ r.keys := by
        rw [updateConf_keys c e r h2, mem_newKeys, updateConf_keys u d c h1, mem_newKeys]
        exact Or.inr (Or.inl hdk')
      rw [Fields.get_eq_none] at hk
      exact hk this
    | some x =>
      obtain ⟨v', p, q⟩ := i2 x hk
      rw [fix_d k x hk, Except.ok.injEq] at p
      rw [q, p]
  have hc2k : c2.keys.Nodup := by rw [updateConf_keys r d c2 h3]; exact newKeys_nodup _ _ hdk
  obtain ⟨r2, h4⟩ := updateConf_ok c2 e hc2k fun k v hk => ⟨v, fix_e k v (hc2 k ▸ hk)⟩
  refine ⟨c2, h3, ?_⟩
  rw [h4]
  congr 1
  apply Fields.ext_keys
  · rw [updateConf_keys c2 e r2 h4, updateConf_keys r d c2 h3, newKeys_filter _ _ (newKeys_nodup _ _ hdk), newKeys_filter d.keys _ hrk,
      updateConf_keys c e r h2, newKeys_filter e.keys _ hck, updateConf_keys u d c h1]
    obtain ⟨x, hx⟩ := newKeys_prefix d.keys u.keys
    have hnd := newKeys_nodup d.keys u.keys hdk
    rw [hx] at hnd ⊢
    rw [List.nodup_append] at hnd
    have f1 : d.keys.filter (fun k => decide (k ∉ e.keys)) = d.keys := List.filter_eq_self.2 fun k hk => by simpa using hdis k hk
    have f2 : e.keys.filter (fun k => decide (k ∉ d.keys)) = e.keys := List.filter_eq_self.2 fun k hk => by
      simpa using fun h => hdis k h hk
    have f3 : d.keys.filter (fun k => decide (k ∉ d.keys)) = [] := List.filter_eq_nil_iff.2 fun k hk => by simpa using hk
    have f4 : e.keys.filter (fun k => decide (k ∉ e.keys)) = [] := List.filter_eq_nil_iff.2 fun k hk => by simpa using hk
    have f5 : x.filter (fun k => decide (k ∉ d.keys)) = x := List.filter_eq_self.2 fun k hk => by
      simpa using fun h => hnd.2.2 k h k hk rfl
    simp only [List.filter_append, f1, f2, f3, f4, List.nil_append]
    have f6 : (x.filter (fun k => decide (k ∉ e.keys))).filter (fun k => decide (k ∉ d.keys)) = x.filter (fun k => decide (k ∉ e.keys)) := by
      rw [List.filter_comm, f5]
    rw [f6]
    simp only [List.filter_filter, Bool.and_self]
  · rw [updateConf_keys c2 e r2 h4]; exact newKeys_nodup _ _ hek
  · intro k
    obtain ⟨i1, i2⟩ := updateConf_get c2 e r2 hc2k h4 k
    cases hk : c2.get k with
    | none =>
      rw [i1 hk, ← hc2 k, hk]
      refine (Fields.get_eq_none _ _).2 fun hek' => ?_
      have : k ∈ r.keys := by rw [updateConf_keys c e r h2, mem_newKeys]; exact Or.inl hek'
      rw [hc2 k, Fields.get_eq_none] at hk
      exact hk this
    | some x =>
      obtain ⟨v', p, q⟩ := i2 x hk
      rw [hc2 k] at hk
      rw [fix_e k x hk, Except.ok.injEq] at p
      rw [q, hk, p]

end Verif
