import Verif.Model.Json
import Mathlib.Data.List.Nodup
import Mathlib.Tactic.Common

/-!
# Lemmas on dictionaries and `update_conf`
-/

namespace Verif

set_option linter.unnecessarySimpa false
set_option linter.unusedTactic false
set_option linter.unreachableTactic false
set_option linter.unusedVariables false
set_option linter.unnecessarySeqFocus false

mutual
/-- No key is repeated, recursively: what every Python dictionary satisfies. -/
def J.wf : J → Prop
  | .obj f => f.wf
  | _ => True
def Fields.wf : Fields → Prop
  | .nil => True
  | .cons k v r => k ∉ r.keys ∧ v.wf ∧ r.wf
end

/-- The value at the end of a path of keys. -/
def J.at : J → List String → Option J
  | v, [] => some v
  | .obj f, k :: p => (f.get k).bind fun v => v.at p
  | _, _ :: _ => none

/-- Not a dictionary. -/
def J.isLeaf : J → Bool
  | .obj _ => false
  | _ => true

theorem conv_leaf {v : J} (h : v.isLeaf = true) : (conv v).isLeaf = true := by
  cases v with
  | obj f => simp [J.isLeaf] at h
  | str s => simp only [conv]; split_ifs <;> rfl
  | _ => rfl

theorem conv_conv (v : J) : conv (conv v) = conv v := by
  cases v <;> simp only [conv]
  rename_i s
  split_ifs <;> simp_all

namespace Fields

theorem get_nil (k : String) : Fields.nil.get k = none := rfl

theorem get_eq_none : (f : Fields) → (k : String) → (f.get k = none ↔ k ∉ f.keys)
  | nil, k => by simp [get, keys]
  | cons k' v r, k => by
    simp only [get, keys, List.mem_cons, not_or]
    split_ifs with h
    · simp [h]
    · rw [get_eq_none r k]
      constructor
      · intro h'; exact ⟨fun e => h e.symm, h'⟩
      · exact fun h' => h'.2

theorem get_isSome (f : Fields) (k : String) : (f.get k).isSome = true ↔ k ∈ f.keys := by
  rw [← not_iff_not, ← get_eq_none]
  cases f.get k <;> simp

theorem mem_of_get {f : Fields} {k : String} {v : J} (h : f.get k = some v) : k ∈ f.keys := by
  rw [← get_isSome, h]; rfl

theorem get_set : (f : Fields) → (k k' : String) → (v : J) → (f.set k v).get k' = if k = k' then some v else f.get k'
  | nil, k, k', v => by simp [set, get]
  | cons k₀ v₀ r, k, k', v => by
    simp only [set]
    split_ifs with h1 h2 h2
    · subst h1; subst h2; simp [get]
    · subst h1; simp [get, h2]
    · subst h2
      simp only [get]
      rw [if_neg h1, get_set r k k v, if_pos rfl]
    · simp only [get]
      rw [get_set r k k' v, if_neg h2]

theorem keys_set : (f : Fields) → (k : String) → (v : J) →
    (f.set k v).keys = if k ∈ f.keys then f.keys else f.keys ++ [k]
  | nil, k, v => by simp [set, keys]
  | cons k₀ v₀ r, k, v => by
    simp only [set]
    split_ifs with h1 h2 h2
    · subst h1; simp [keys]
    · subst h1; simp [keys] at h2
    · simp only [keys] at h2 ⊢
      rw [keys_set r k v]
      rw [List.mem_cons] at h2
      rcases h2 with h2 | h2
      · exact absurd h2.symm h1
      · rw [if_pos h2]
    · simp only [keys] at h2 ⊢
      rw [List.mem_cons, not_or] at h2
      rw [keys_set r k v, if_neg h2.2]
      rfl

theorem wf_keys : (f : Fields) → f.wf → f.keys.Nodup
  | nil, _ => by simp [keys]
  | cons k v r, h => by
    simp only [Fields.wf] at h
    simp only [keys, List.nodup_cons]
    exact ⟨h.1, wf_keys r h.2.2⟩

theorem wf_get : (f : Fields) → f.wf → ∀ {k v}, f.get k = some v → v.wf
  | nil, _, k, v, h => by simp [get] at h
  | cons k₀ v₀ r, hw, k, v, h => by
    simp only [Fields.wf] at hw
    simp only [get] at h
    split_ifs at h with e
    · exact Option.some.inj h ▸ hw.2.1
    · exact wf_get r hw.2.2 h

theorem ext_keys : (f g : Fields) → f.keys = g.keys → f.keys.Nodup → (∀ k, f.get k = g.get k) → f = g
  | nil, nil, _, _, _ => rfl
  | nil, cons .., h, _, _ => by simp [keys] at h
  | cons .., nil, h, _, _ => by simp [keys] at h
  | cons k v r, cons k' v' r', h, hn, hg => by
    simp only [keys, List.cons.injEq] at h
    simp only [keys, List.nodup_cons] at hn
    obtain ⟨rfl, h⟩ := h
    have h0 := hg k
    simp only [get, if_pos, Option.some.injEq] at h0
    subst h0
    congr 1
    apply ext_keys r r' h hn.2
    intro k'
    by_cases e : k = k'
    · subst e
      rw [(get_eq_none r k).2 hn.1, (get_eq_none r' k).2 (h ▸ hn.1)]
    · have := hg k'
      simp only [get, if_neg e] at this
      exact this

theorem set_get_self (f : Fields) (k : String) (v : J) (hn : f.keys.Nodup) (h : f.get k = some v) : f.set k v = f := by
  apply ext_keys
  · rw [keys_set, if_pos (mem_of_get h)]
  · rw [keys_set, if_pos (mem_of_get h)]; exact hn
  · intro k'
    rw [get_set]
    split_ifs with e
    · rw [← e, h]
    · rfl

theorem keys_set_nodup (f : Fields) (k : String) (v : J) (h : f.keys.Nodup) : (f.set k v).keys.Nodup := by
  rw [keys_set]
  split_ifs with e
  · exact h
  · rw [List.nodup_append]
    exact ⟨h, by simp, fun a ha b hb e' => e (by rw [List.mem_singleton] at hb; rw [← hb, ← e']; exact ha)⟩

theorem get_setDefault (f : Fields) (k k' : String) (v : J) :
    (f.setDefault k v).get k' = if k = k' then some ((f.get k).getD v) else f.get k' := by
  unfold setDefault
  cases h : f.get k with
  | none => simp only [Option.getD_none]; rw [get_set]
  | some w =>
    simp only [Option.getD_some]
    split_ifs with e
    · rw [← e, h]
    · rfl

theorem setDefault_of_get {f : Fields} {k : String} {w : J} (v : J) (h : f.get k = some w) : f.setDefault k v = f := by
  unfold setDefault; rw [h]

theorem keys_setDefault_nodup (f : Fields) (k : String) (v : J) (h : f.keys.Nodup) : (f.setDefault k v).keys.Nodup := by
  unfold setDefault
  split
  · exact h
  · exact keys_set_nodup f k v h

end Fields

/-- Value of each key of the updated dictionary. -/
theorem updateConf_get : (u d r : Fields) → u.keys.Nodup → updateConf d u = .ok r → ∀ k,
    (u.get k = none → r.get k = d.get k) ∧
    (∀ v, u.get k = some v → ∃ v', updateVal (d.get k) v = .ok v' ∧ r.get k = some v')
  | .nil, d, r, _, h, k => by
    simp only [updateConf, Except.ok.injEq] at h
    subst h
    simp [Fields.get]
  | .cons k₀ v₀ u, d, r, hn, h, k => by
    simp only [Fields.keys, List.nodup_cons] at hn
    simp only [updateConf] at h
    cases hv : updateVal (d.get k₀) v₀ with
    | error e => rw [hv] at h; simp at h
    | ok v' =>
      rw [hv] at h
      simp only at h
      obtain ⟨i1, i2⟩ := updateConf_get u (d.set k₀ v') r hn.2 h k
      simp only [Fields.get]
      by_cases e : k₀ = k
      · subst e
        simp only [if_true, reduceCtorEq, false_implies, Option.some.injEq, true_and]
        rintro v rfl
        refine ⟨v', hv, ?_⟩
        rw [i1 ((Fields.get_eq_none u k₀).2 hn.1), Fields.get_set, if_pos rfl]
      · simp only [if_neg e]
        rw [Fields.get_set, if_neg e] at i1 i2
        exact ⟨i1, i2⟩

theorem updateConf_ok : (u d : Fields) → u.keys.Nodup →
    (∀ k v, u.get k = some v → ∃ v', updateVal (d.get k) v = .ok v') → ∃ r, updateConf d u = .ok r
  | .nil, d, _, _ => ⟨d, rfl⟩
  | .cons k₀ v₀ u, d, hn, h => by
    simp only [Fields.keys, List.nodup_cons] at hn
    obtain ⟨v', hv⟩ := h k₀ v₀ (by simp [Fields.get])
    simp only [updateConf, hv]
    apply updateConf_ok u _ hn.2
    intro k v hk
    have hne : k₀ ≠ k := fun e => hn.1 (e ▸ Fields.mem_of_get hk)
    rw [Fields.get_set, if_neg hne]
    exact h k v (by simp only [Fields.get]; rw [if_neg hne]; exact hk)

/-- Keys after the assignment of the keys `l`. -/
def newKeys (ks l : List String) : List String := l.foldl (fun ks s => if s ∈ ks then ks else ks ++ [s]) ks

theorem updateConf_keys : (u d r : Fields) → updateConf d u = .ok r → r.keys = newKeys d.keys u.keys
  | .nil, d, r, h => by
    simp only [updateConf, Except.ok.injEq] at h
    subst h; rfl
  | .cons k₀ v₀ u, d, r, h => by
    simp only [updateConf] at h
    cases hv : updateVal (d.get k₀) v₀ with
    | error e => rw [hv] at h; simp at h
    | ok v' =>
      rw [hv] at h
      simp only at h
      rw [updateConf_keys u _ r h, Fields.keys_set]
      rfl

theorem newKeys_nodup (ks l : List String) (h : ks.Nodup) : (newKeys ks l).Nodup := by
  induction l generalizing ks with
  | nil => exact h
  | cons s l ih =>
    show (newKeys (if s ∈ ks then ks else ks ++ [s]) l).Nodup
    apply ih
    split_ifs with e
    · exact h
    · rw [List.nodup_append]
      exact ⟨h, by simp, fun a ha b hb e' => e (by rw [List.mem_singleton] at hb; rw [← hb, ← e']; exact ha)⟩

theorem mem_newKeys (ks l : List String) (s : String) : s ∈ newKeys ks l ↔ s ∈ ks ∨ s ∈ l := by
  induction l generalizing ks with
  | nil => simp [newKeys]
  | cons t l ih =>
    show s ∈ newKeys (if t ∈ ks then ks else ks ++ [t]) l ↔ _
    rw [ih, List.mem_cons]
    split_ifs with ht
    · constructor
      · rintro (h | h)
        · exact Or.inl h
        · exact Or.inr (Or.inr h)
      · rintro (h | rfl | h)
        · exact Or.inl h
        · exact Or.inl ht
        · exact Or.inr h
    · rw [List.mem_append, List.mem_singleton, or_assoc]

theorem newKeys_of_subset (ks l : List String) (h : ∀ s ∈ l, s ∈ ks) : newKeys ks l = ks := by
  induction l with
  | nil => rfl
  | cons t l ih =>
    show newKeys (if t ∈ ks then ks else ks ++ [t]) l = _
    rw [if_pos (h t (by simp)), ih (fun s hs => h s (by simp [hs]))]

theorem newKeys_disjoint (ks l : List String) (hn : l.Nodup) (hd : ∀ s ∈ l, s ∉ ks) : newKeys ks l = ks ++ l := by
  induction l generalizing ks with
  | nil => simp [newKeys]
  | cons s l ih =>
    rw [List.nodup_cons] at hn
    show newKeys (if s ∈ ks then ks else ks ++ [s]) l = _
    rw [if_neg (hd s (by simp)), ih _ hn.2, List.append_assoc]
    · rfl
    · intro t ht
      rw [List.mem_append, List.mem_singleton]
      rintro (h | rfl)
      · exact hd t (by simp [ht]) h
      · exact hn.1 ht

theorem newKeys_prefix (ks l : List String) : ∃ e, newKeys ks l = ks ++ e := by
  induction l generalizing ks with
  | nil => exact ⟨[], by simp [newKeys]⟩
  | cons s l ih =>
    show ∃ e, newKeys (if s ∈ ks then ks else ks ++ [s]) l = ks ++ e
    split_ifs with h
    · exact ih ks
    · obtain ⟨e, he⟩ := ih (ks ++ [s])
      exact ⟨s :: e, by rw [he, List.append_assoc]; rfl⟩

/-- Keys already in order stay in order. -/
theorem newKeys_again (ks l : List String) (hn : ks.Nodup) : newKeys ks (newKeys ks l) = newKeys ks l := by
  obtain ⟨e, he⟩ := newKeys_prefix ks l
  have hnd := newKeys_nodup ks l hn
  rw [he] at hnd ⊢
  rw [List.nodup_append] at hnd
  have h1 : newKeys ks (ks ++ e) = newKeys (newKeys ks ks) e := by
    unfold newKeys; rw [List.foldl_append]
  rw [h1, newKeys_of_subset ks ks (fun _ h => h), newKeys_disjoint ks e hnd.2.1 (fun s hs hk => hnd.2.2 s hk s hs rfl)]

theorem updateVal_leaf (old : Option J) {v : J} (h : v.isLeaf = true) : updateVal old v = .ok (conv v) := by
  cases v <;> simp_all [updateVal, J.isLeaf]

/-- The values given by the user are in the result, converted. -/
theorem updateConf_leaf (p : List String) : ∀ (u d r : Fields) (v : J), u.wf → updateConf d u = .ok r →
    (J.obj u).at p = some v → v.isLeaf = true → (J.obj r).at p = some (conv v) := by
  induction p with
  | nil =>
    intro u d r v _ _ hv hl
    simp only [J.at, Option.some.injEq] at hv
    subst hv
    simp [J.isLeaf] at hl
  | cons k p ih =>
    intro u d r v hw h hv hl
    simp only [J.at] at hv ⊢
    cases hk : u.get k with
    | none => rw [hk] at hv; simp at hv
    | some w =>
      rw [hk] at hv
      simp only [Option.bind_some] at hv
      obtain ⟨w', h1, h2⟩ := (updateConf_get u d r (Fields.wf_keys u hw) h k).2 w hk
      rw [h2, Option.bind_some]
      by_cases hwl : w.isLeaf = true
      · rw [updateVal_leaf _ hwl, Except.ok.injEq] at h1
        cases p with
        | nil =>
          simp only [J.at, Option.some.injEq] at hv ⊢
          rw [← h1, hv]
        | cons k' p => cases w <;> simp_all [J.at, J.isLeaf]
      · cases w with
        | obj f =>
          have hf : f.wf := Fields.wf_get u hw hk
          cases p with
          | nil =>
            simp only [J.at, Option.some.injEq] at hv
            subst hv
            simp [J.isLeaf] at hl
          | cons k' p =>
            simp only [updateVal] at h1
            cases hd : d.get k with
            | none =>
              rw [hd] at h1
              cases hu : updateConf .nil f with
              | error e => rw [hu] at h1; simp [Except.map] at h1
              | ok g =>
                rw [hu] at h1
                simp only [Except.map, Except.ok.injEq] at h1
                rw [← h1]
                exact ih f _ g v hf hu hv hl
            | some x =>
              rw [hd] at h1
              cases x with
              | obj g0 =>
                simp only at h1
                cases hu : updateConf g0 f with
                | error e => rw [hu] at h1; simp [Except.map] at h1
                | ok g =>
                  rw [hu] at h1
                  simp only [Except.map, Except.ok.injEq] at h1
                  rw [← h1]
                  exact ih f _ g v hf hu hv hl
              | _ =>
                simp only at h1
                cases f with
                | nil => simp [J.at, Fields.get] at hv
                | cons => simp at h1
        | _ => exact absurd rfl hwl

/-- The user gives nothing at this (non-empty) path: no value at the path, no value that is not a dictionary on the way. -/
def untouched : Fields → List String → Prop
  | _, [] => False
  | u, k :: p => match u.get k with
    | none => True
    | some (.obj f) => untouched f p
    | some _ => False

/-- Where the user gives nothing the default is kept. -/
theorem updateConf_default (p : List String) : ∀ (u d r : Fields), u.wf → updateConf d u = .ok r →
    untouched u p → (J.obj r).at p = (J.obj d).at p := by
  induction p with
  | nil => intro u d r _ _ h; exact h.elim
  | cons k p ih =>
    intro u d r hw h hu
    simp only [J.at]
    simp only [untouched] at hu
    cases hk : u.get k with
    | none => rw [(updateConf_get u d r (Fields.wf_keys u hw) h k).1 hk]
    | some w =>
      rw [hk] at hu
      cases w with
      | obj f =>
        simp only at hu
        obtain ⟨w', h1, h2⟩ := (updateConf_get u d r (Fields.wf_keys u hw) h k).2 _ hk
        have hf : f.wf := Fields.wf_get u hw hk
        rw [h2, Option.bind_some]
        simp only [updateVal] at h1
        cases hd : d.get k with
        | none =>
          rw [hd] at h1
          cases hu' : updateConf .nil f with
          | error e => rw [hu'] at h1; simp [Except.map] at h1
          | ok g =>
            rw [hu'] at h1
            simp only [Except.map, Except.ok.injEq] at h1
            rw [← h1, ih f _ g hf hu' hu]
            cases p with
            | nil => exact hu.elim
            | cons => simp [J.at, Fields.get]
        | some x =>
          rw [hd] at h1
          cases x with
          | obj g0 =>
            simp only at h1
            cases hu' : updateConf g0 f with
            | error e => rw [hu'] at h1; simp [Except.map] at h1
            | ok g =>
              rw [hu'] at h1
              simp only [Except.map, Except.ok.injEq] at h1
              rw [← h1, ih f _ g hf hu' hu]
              rfl
          | _ =>
            simp only at h1
            cases f with
            | nil =>
              simp only [Except.ok.injEq] at h1
              rw [← h1]; rfl
            | cons => simp at h1
      | _ => exact hu.elim

mutual
/-- No string that `update_conf` converts, recursively. -/
def J.normal : J → Prop
  | .obj f => f.normal
  | v => conv v = v
def Fields.normal : Fields → Prop
  | .nil => True
  | .cons _ v r => v.normal ∧ r.normal
end

theorem Fields.normal_get : (f : Fields) → f.normal → ∀ {k v}, f.get k = some v → v.normal
  | .nil, _, k, v, h => by simp [Fields.get] at h
  | .cons k₀ v₀ r, hw, k, v, h => by
    simp only [Fields.normal] at hw
    simp only [Fields.get] at h
    split_ifs at h with e
    · exact Option.some.inj h ▸ hw.1
    · exact Fields.normal_get r hw.2 h

/-- An update which leaves every value as it is in the user's dictionary. -/
theorem updateConf_fixed (d r : Fields) (hd : d.keys.Nodup) (hr : r.keys.Nodup)
    (h : ∀ k v, r.get k = some v → updateVal (d.get k) v = .ok v)
    (hdr : ∀ k, r.get k = none → d.get k = none) (hkeys : newKeys d.keys r.keys = r.keys) : updateConf d r = .ok r := by
  obtain ⟨r', e⟩ := updateConf_ok r d hr (fun k v hk => ⟨v, h k v hk⟩)
  rw [e]
  congr 1
  apply Fields.ext_keys
  · rw [updateConf_keys r d r' e, hkeys]
  · rw [updateConf_keys r d r' e]; exact newKeys_nodup _ _ hd
  · intro k
    obtain ⟨i1, i2⟩ := updateConf_get r d r' hr e k
    cases hk : r.get k with
    | none => rw [i1 hk, hdr k hk]
    | some v =>
      obtain ⟨v', a, b⟩ := i2 v hk
      rw [h k v hk, Except.ok.injEq] at a
      rw [b, ← a]

mutual
theorem updateVal_self : (x : J) → x.wf → x.normal → updateVal (some x) x = .ok x
  | .obj f, hw, hn => by
    have hw' : f.wf := by simpa [J.wf] using hw
    have hn' : f.normal := by simpa [J.normal] using hn
    simp only [updateVal]
    rw [updateConf_fixed f f (Fields.wf_keys f hw') (Fields.wf_keys f hw')
      (fun k v hk => by rw [hk]; exact updateVals_self f hw' hn' k v hk) (fun k h => h)
      (newKeys_of_subset _ _ (fun _ h => h))]
    rfl
  | .null, _, _ => rfl
  | .bool _, _, _ => rfl
  | .int _, _, _ => rfl
  | .float _, _, _ => rfl
  | .arr _, _, _ => rfl
  | .str s, _, h => by
    have h' : conv (.str s) = .str s := by simpa only [J.normal] using h
    rw [updateVal_leaf _ rfl, h']

theorem updateVals_self : (f : Fields) → f.wf → f.normal → ∀ k v, f.get k = some v → updateVal (some v) v = .ok v
  | .nil, _, _, k, v, h => by simp [Fields.get] at h
  | .cons k₀ v₀ r, hw, hn, k, v, h => by
    simp only [Fields.wf] at hw
    simp only [Fields.normal] at hn
    simp only [Fields.get] at h
    split_ifs at h with e
    · have e' : v₀ = v := Option.some.inj h
      rw [← e']
      exact updateVal_self v₀ hw.2.1 hn.1
    · exact updateVals_self r hw.2.2 hn.2 k v h
end

/-- The result of an update is a fixed point of the same update, given that each value is. -/
theorem updateConf_again_of (u d r : Fields) (hu : u.wf) (hd : d.wf) (hdn : d.normal) (h : updateConf d u = .ok r)
    (hv : ∀ k v, u.get k = some v → ∀ w, updateVal (d.get k) v = .ok w → updateVal (d.get k) w = .ok w) :
    updateConf d r = .ok r := by
  have hdk := Fields.wf_keys d hd
  have hrk : r.keys.Nodup := by rw [updateConf_keys u d r h]; exact newKeys_nodup _ _ hdk
  apply updateConf_fixed d r hdk hrk
  · intro k v hk
    obtain ⟨i1, i2⟩ := updateConf_get u d r (Fields.wf_keys u hu) h k
    cases huk : u.get k with
    | none =>
      rw [i1 huk] at hk
      rw [hk]
      exact updateVals_self d hd hdn k v hk
    | some x =>
      obtain ⟨w, a, b⟩ := i2 x huk
      rw [hk, Option.some.injEq] at b
      subst b
      exact hv k x huk v a
  · intro k hk
    rw [Fields.get_eq_none] at hk ⊢
    rw [updateConf_keys u d r h, mem_newKeys] at hk
    exact fun h' => hk (Or.inl h')
  · rw [updateConf_keys u d r h, newKeys_again _ _ hdk]

mutual
theorem updateVal_again : (v : J) → v.wf → ∀ (old : Option J) (w : J), (∀ x, old = some x → x.wf ∧ x.normal) →
    updateVal old v = .ok w → updateVal old w = .ok w
  | .obj f, hw, old, w, ho, h => by
    have hf : f.wf := by simpa [J.wf] using hw
    simp only [updateVal] at h
    cases old with
    | none =>
      simp only at h
      cases hu : updateConf .nil f with
      | error e => rw [hu] at h; simp [Except.map] at h
      | ok g =>
        rw [hu] at h
        simp only [Except.map, Except.ok.injEq] at h
        subst h
        simp only [updateVal]
        rw [updateConf_again_of f .nil g hf (by simp [Fields.wf]) (by simp [Fields.normal]) hu
          (fun k v hk w' hv' => updateVals_again f hf k v hk _ w' (by simp [Fields.get]) hv')]
        rfl
    | some x =>
      obtain ⟨hxw, hxn⟩ := ho x rfl
      cases x with
      | obj g0 =>
        simp only at h
        have hg0 : g0.wf := by simpa [J.wf] using hxw
        have hg0n : g0.normal := by simpa [J.normal] using hxn
        cases hu : updateConf g0 f with
        | error e => rw [hu] at h; simp [Except.map] at h
        | ok g =>
          rw [hu] at h
          simp only [Except.map, Except.ok.injEq] at h
          subst h
          simp only [updateVal]
          rw [updateConf_again_of f g0 g hf hg0 hg0n hu
            (fun k v hk w' hv' => updateVals_again f hf k v hk _ w'
              (fun x hx => ⟨Fields.wf_get g0 hg0 hx, Fields.normal_get g0 hg0n hx⟩) hv')]
          rfl
      | _ =>
        simp only at h
        cases f with
        | nil =>
          simp only [Except.ok.injEq] at h
          subst h
          exact updateVal_self _ hxw hxn
        | cons => simp at h
  | .null, _, old, w, _, h => by rw [updateVal_leaf old rfl] at h; cases h; rfl
  | .bool _, _, old, w, _, h => by rw [updateVal_leaf old rfl] at h; cases h; rfl
  | .int _, _, old, w, _, h => by rw [updateVal_leaf old rfl] at h; cases h; rfl
  | .float _, _, old, w, _, h => by rw [updateVal_leaf old rfl] at h; cases h; rfl
  | .arr _, _, old, w, _, h => by rw [updateVal_leaf old rfl] at h; cases h; rfl
  | .str s, _, old, w, _, h => by
    rw [updateVal_leaf old rfl] at h
    cases h
    rw [updateVal_leaf old (conv_leaf rfl), conv_conv]

theorem updateVals_again : (f : Fields) → f.wf → ∀ k v, f.get k = some v → ∀ (old : Option J) (w : J),
    (∀ x, old = some x → x.wf ∧ x.normal) → updateVal old v = .ok w → updateVal old w = .ok w
  | .nil, _, k, v, h, _, _, _, _ => by simp [Fields.get] at h
  | .cons k₀ v₀ r, hw, k, v, h, old, w, ho, hv => by
    simp only [Fields.wf] at hw
    simp only [Fields.get] at h
    split_ifs at h with e
    · have e' : v₀ = v := Option.some.inj h
      rw [← e'] at hv
      exact updateVal_again v₀ hw.2.1 old w ho hv
    · exact updateVals_again r hw.2.2 k v h old w ho hv
end

/-- `update_conf` is idempotent. -/
theorem updateConf_again (u d r : Fields) (hu : u.wf) (hd : d.wf) (hdn : d.normal) (h : updateConf d u = .ok r) :
    updateConf d r = .ok r :=
  updateConf_again_of u d r hu hd hdn h fun k v hk w hv =>
    updateVals_again u hu k v hk _ w (fun x hx => ⟨Fields.wf_get d hd hx, Fields.normal_get d hdn hx⟩) hv

mutual
/-- Conversion of all the values. -/
def J.convAll : J → J
  | .obj f => .obj f.convAll
  | v => conv v
def Fields.convAll : Fields → Fields
  | .nil => .nil
  | .cons k v r => .cons k v.convAll r.convAll
end

namespace Fields

theorem append_nil : (f : Fields) → f.append .nil = f
  | nil => rfl
  | cons k v r => by simp only [append]; rw [append_nil r]

theorem append_assoc : (f g h : Fields) → (f.append g).append h = f.append (g.append h)
  | nil, _, _ => rfl
  | cons k v r, g, h => by simp only [append]; rw [append_assoc r g h]

theorem set_new : (f : Fields) → (k : String) → (v : J) → k ∉ f.keys → f.set k v = f.append (.cons k v .nil)
  | nil, _, _, _ => rfl
  | cons k₀ v₀ r, k, v, h => by
    simp only [keys, List.mem_cons, not_or] at h
    simp only [set, append]
    rw [if_neg (fun e => h.1 e.symm), set_new r k v h.2]

theorem keys_append : (f g : Fields) → (f.append g).keys = f.keys ++ g.keys
  | nil, _ => rfl
  | cons k v r, g => by simp only [append, keys]; rw [keys_append r g]; rfl

theorem get_append : (f g : Fields) → (k : String) → (f.append g).get k = (f.get k).or (g.get k)
  | nil, _, _ => rfl
  | cons k₀ v₀ r, g, k => by
    simp only [append, get]
    split_ifs
    · rfl
    · exact get_append r g k

theorem keys_convAll : (f : Fields) → f.convAll.keys = f.keys
  | nil => rfl
  | cons k v r => by simp only [convAll, keys]; rw [keys_convAll r]

theorem get_convAll : (f : Fields) → (k : String) → f.convAll.get k = (f.get k).map J.convAll
  | nil, _ => rfl
  | cons k₀ v₀ r, k => by
    simp only [convAll, get]
    split_ifs
    · rfl
    · exact get_convAll r k

end Fields

mutual
theorem updateVal_none : (v : J) → v.wf → updateVal none v = .ok v.convAll
  | .obj f, hw => by
    have hf : f.wf := by simpa [J.wf] using hw
    simp only [updateVal, J.convAll]
    rw [updateConf_append f hf .nil (by simp [Fields.keys])]
    rfl
  | .null, _ => rfl
  | .bool _, _ => rfl
  | .int _, _ => rfl
  | .float _, _ => rfl
  | .arr _, _ => rfl
  | .str _, _ => by rw [updateVal_leaf _ rfl]; rfl

/-- An update with new keys only appends the converted values. -/
theorem updateConf_append : (u : Fields) → u.wf → ∀ d : Fields, (∀ k ∈ u.keys, k ∉ d.keys) →
    updateConf d u = .ok (d.append u.convAll)
  | .nil, _, d, _ => by simp only [updateConf, Fields.convAll]; rw [Fields.append_nil]
  | .cons k v r, hw, d, hd => by
    simp only [Fields.wf] at hw
    have hk : k ∉ d.keys := hd k (by simp [Fields.keys])
    simp only [updateConf]
    rw [(Fields.get_eq_none d k).2 hk, updateVal_none v hw.2.1]
    simp only
    rw [updateConf_append r hw.2.2 _ (by
      intro k' hk' h'
      rw [Fields.keys_set, if_neg hk, List.mem_append, List.mem_singleton] at h'
      rcases h' with h' | rfl
      · exact hd k' (by simp [Fields.keys, hk']) h'
      · exact hw.1 hk'), Fields.set_new d k _ hk, Fields.append_assoc]
    rfl
end

/-- `update_conf({}, user)`. -/
theorem updateConf_nil (u : Fields) (h : u.wf) : updateConf .nil u = .ok u.convAll := by
  rw [updateConf_append u h .nil (by simp [Fields.keys])]; rfl

theorem conv_eq_int {v : J} {i : Int} (h : conv v = .int i) : v = .int i := by
  cases v with
  | str s => simp only [conv] at h; split_ifs at h <;> simp at h
  | _ => simpa [conv] using h

theorem conv_eq_bool {v : J} {b : Bool} (h : conv v = .bool b) : v = .bool b := by
  cases v with
  | str s => simp only [conv] at h; split_ifs at h <;> simp at h
  | _ => simpa [conv] using h

theorem convAll_eq_int {v : J} {i : Int} (h : v.convAll = .int i) : v = .int i := by
  cases v with
  | obj f => simp [J.convAll] at h
  | _ => exact conv_eq_int (by simpa only [J.convAll] using h)

theorem convAll_eq_bool {v : J} {b : Bool} (h : v.convAll = .bool b) : v = .bool b := by
  cases v with
  | obj f => simp [J.convAll] at h
  | _ => exact conv_eq_bool (by simpa only [J.convAll] using h)

theorem convAll_eq_obj {v : J} {g : Fields} (h : v.convAll = .obj g) : ∃ f, v = .obj f ∧ f.convAll = g := by
  cases v with
  | obj f => exact ⟨f, rfl, by simpa [J.convAll] using h⟩
  | str s => simp only [J.convAll, conv] at h; split_ifs at h <;> simp at h
  | _ => simp [J.convAll, conv] at h

theorem convAll_eq_str {v : J} {s : String} (h : v.convAll = .str s) : v = .str s := by
  cases v with
  | obj f => simp [J.convAll] at h
  | str t => simp only [J.convAll, conv] at h; split_ifs at h <;> simp_all
  | _ => simp [J.convAll, conv] at h

theorem Fields.wf_of : (f : Fields) → f.keys.Nodup → (∀ k v, f.get k = some v → v.wf) → f.wf
  | .nil, _, _ => trivial
  | .cons k v r, hn, h => by
    simp only [Fields.keys, List.nodup_cons] at hn
    simp only [Fields.wf]
    refine ⟨hn.1, h k v (by simp [Fields.get]), Fields.wf_of r hn.2 (fun k' v' h' => h k' v' ?_)⟩
    have : k ≠ k' := fun e => hn.1 (e ▸ Fields.mem_of_get h')
    simp only [Fields.get]
    rw [if_neg this]
    exact h'

theorem conv_wf (v : J) (h : v.wf) : (conv v).wf := by
  cases v with
  | str s => simp only [conv]; split_ifs <;> trivial
  | _ => exact h

theorem updateConf_wf_of (u d r : Fields) (hu : u.wf) (hd : d.wf) (h : updateConf d u = .ok r)
    (hv : ∀ k v, u.get k = some v → ∀ w, updateVal (d.get k) v = .ok w → w.wf) : r.wf := by
  apply Fields.wf_of
  · rw [updateConf_keys u d r h]; exact newKeys_nodup _ _ (Fields.wf_keys d hd)
  · intro k v hk
    obtain ⟨i1, i2⟩ := updateConf_get u d r (Fields.wf_keys u hu) h k
    cases huk : u.get k with
    | none => exact Fields.wf_get d hd (i1 huk ▸ hk)
    | some x =>
      obtain ⟨w, a, b⟩ := i2 x huk
      rw [hk, Option.some.injEq] at b
      exact hv k x huk v (b ▸ a)

mutual
theorem updateVal_wf : (v : J) → v.wf → ∀ (old : Option J) (w : J), (∀ x, old = some x → x.wf) → updateVal old v = .ok w → w.wf
  | .obj f, hw, old, w, ho, h => by
    have hf : f.wf := by simpa [J.wf] using hw
    simp only [updateVal] at h
    cases old with
    | none =>
      simp only at h
      cases hu : updateConf .nil f with
      | error e => rw [hu] at h; simp [Except.map] at h
      | ok g =>
        rw [hu] at h
        simp only [Except.map, Except.ok.injEq] at h
        subst h
        exact updateConf_wf_of f .nil g hf trivial hu (fun k v hk w' hv' => updateVals_wf f hf k v hk _ w' (by simp [Fields.get]) hv')
    | some x =>
      have hxw := ho x rfl
      cases x with
      | obj g0 =>
        simp only at h
        have hg0 : g0.wf := by simpa [J.wf] using hxw
        cases hu : updateConf g0 f with
        | error e => rw [hu] at h; simp [Except.map] at h
        | ok g =>
          rw [hu] at h
          simp only [Except.map, Except.ok.injEq] at h
          subst h
          exact updateConf_wf_of f g0 g hf hg0 hu (fun k v hk w' hv' => updateVals_wf f hf k v hk _ w'
              (fun x hx => Fields.wf_get g0 hg0 hx) hv')
      | _ =>
        simp only at h
        cases f with
        | nil =>
          simp only [Except.ok.injEq] at h
          subst h
          exact hxw
        | cons => simp at h
  | .null, _, old, w, _, h => by rw [updateVal_leaf old rfl] at h; cases h; exact trivial
  | .bool _, _, old, w, _, h => by rw [updateVal_leaf old rfl] at h; cases h; exact trivial
  | .int _, _, old, w, _, h => by rw [updateVal_leaf old rfl] at h; cases h; exact trivial
  | .float _, _, old, w, _, h => by rw [updateVal_leaf old rfl] at h; cases h; exact trivial
  | .arr _, _, old, w, _, h => by rw [updateVal_leaf old rfl] at h; cases h; exact trivial
  | .str s, hw, old, w, _, h => by
    rw [updateVal_leaf old rfl] at h
    cases h
    exact conv_wf _ hw

theorem updateVals_wf : (f : Fields) → f.wf → ∀ k v, f.get k = some v → ∀ (old : Option J) (w : J),
    (∀ x, old = some x → x.wf) → updateVal old v = .ok w → w.wf
  | .nil, _, k, v, h, _, _, _, _ => by simp [Fields.get] at h
  | .cons k₀ v₀ r, hw, k, v, h, old, w, ho, hv => by
    simp only [Fields.wf] at hw
    simp only [Fields.get] at h
    split_ifs at h with e
    · have e' : v₀ = v := Option.some.inj h
      rw [← e'] at hv
      exact updateVal_wf v₀ hw.2.1 old w ho hv
    · exact updateVals_wf r hw.2.2 k v h old w ho hv
end

theorem updateConf_wf (u d r : Fields) (hu : u.wf) (hd : d.wf) (h : updateConf d u = .ok r) : r.wf :=
  updateConf_wf_of u d r hu hd h fun k v hk w hv =>
    updateVals_wf u hu k v hk _ w (fun _ hx => Fields.wf_get d hd hx) hv

end Verif
