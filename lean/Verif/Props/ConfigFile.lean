import Verif.Spec.ConfigFile
import Verif.Props.SavedAgain
import Verif.Props.SectionValues
import Verif.Props.MainExample

/-!
# Property C149: the file of the saved configuration
-/

namespace Verif.Props

open Verif Verif.Config Verif.Machine Verif.ImgTools Verif.MatchingCost Verif.Disparity Verif.Estimation Verif.Run Verif.Main Verif.Spec
  Verif.Save Verif.Statistics Verif.ConfigFile

set_option linter.unusedSectionVars false

section Text

/-- A value never starts with a closing sign. -/
theorem dump_start (v : J) : ∃ a t, dump v = a :: t ∧ a ≠ .rbracket ∧ a ≠ .rbrace := by
  cases v with
  | float x => cases x <;> exact ⟨_, _, rfl, by simp [floatTok], by simp [floatTok]⟩
  | _ => exact ⟨_, _, by rw [dump], by simp, by simp⟩

theorem scan_array {n : Nat} {a : ConfigFile.Tok} {r : List ConfigFile.Tok} (h : a ≠ .rbracket) :
    scan (n + 1) (.lbracket :: a :: r) = (scanItems n (a :: r)).map fun l => (.arr l.1, l.2) := by
  cases a <;> simp_all [scan]

mutual
/-- Reading what was written. -/
theorem scan_dump (v : J) (n : Nat) (r : List ConfigFile.Tok) (h : (dump v).length < n) : scan n (dump v ++ r) = some (v, r) := by
  match v with
  | .null =>
    obtain ⟨n, rfl⟩ : ∃ k, n = k + 1 := ⟨n - 1, by omega⟩
    simp [dump, scan, wordValue]
  | .bool b =>
    obtain ⟨n, rfl⟩ : ∃ k, n = k + 1 := ⟨n - 1, by omega⟩
    cases b <;> simp [dump, scan, wordValue]
  | .int i =>
    obtain ⟨n, rfl⟩ : ∃ k, n = k + 1 := ⟨n - 1, by omega⟩
    simp [dump, scan]
  | .float x =>
    obtain ⟨n, rfl⟩ : ∃ k, n = k + 1 := ⟨n - 1, by omega⟩
    cases x <;> simp [dump, floatTok, scan, wordValue]
  | .str s =>
    obtain ⟨n, rfl⟩ : ∃ k, n = k + 1 := ⟨n - 1, by omega⟩
    simp [dump, scan]
  | .arr .nil =>
    obtain ⟨n, rfl⟩ : ∃ k, n = k + 1 := ⟨n - 1, by omega⟩
    simp [dump, ConfigFile.dumpItems, scan]
  | .arr (.cons v l) =>
    obtain ⟨n, rfl⟩ : ∃ k, n = k + 1 := ⟨n - 1, by omega⟩
    have hm := scanItems_dump v l n r (by simp [dump] at h; omega)
    obtain ⟨a, t, ht, ha, -⟩ : ∃ a t, ConfigFile.dumpItems (.cons v l) = a :: t ∧ a ≠ .rbracket ∧ a ≠ .rbrace := by
      obtain ⟨a, t, e, q⟩ := dump_start v
      cases l
      · exact ⟨a, _, by rw [ConfigFile.dumpItems, e], q⟩
      · exact ⟨a, _, by rw [ConfigFile.dumpItems, e]; rfl, q⟩
    simp only [dump, List.cons_append, List.append_assoc, List.nil_append]
    rw [ht] at hm ⊢
    simp only [List.cons_append] at hm ⊢
    rw [scan_array ha, hm]
    rfl
  | .obj .nil =>
    obtain ⟨n, rfl⟩ : ∃ k, n = k + 1 := ⟨n - 1, by omega⟩
    simp [dump, dumpFields, scan]
  | .obj (.cons k v l) =>
    obtain ⟨n, rfl⟩ : ∃ k, n = k + 1 := ⟨n - 1, by omega⟩
    have hm := scanFields_dump k v l n r (by simp [dump] at h; omega)
    obtain ⟨t, ht⟩ : ∃ t, dumpFields (.cons k v l) = .str k :: .colon :: t := by
      cases l <;> exact ⟨_, by rw [dumpFields]⟩
    simp only [dump, List.cons_append, List.append_assoc, List.nil_append]
    rw [ht] at hm ⊢
    simp only [List.cons_append] at hm ⊢
    simp only [scan, hm]
    rfl
termination_by sizeOf v

/-- Reading the items of a list which were written. -/
theorem scanItems_dump (v : J) (l : Js) (n : Nat) (r : List ConfigFile.Tok) (h : (ConfigFile.dumpItems (.cons v l)).length + 1 < n) :
    scanItems n (ConfigFile.dumpItems (.cons v l) ++ .rbracket :: r) = some (.cons v l, r) := by
  match l with
  | .nil =>
    obtain ⟨n, rfl⟩ : ∃ k, n = k + 1 := ⟨n - 1, by omega⟩
    have hv := scan_dump v n (.rbracket :: r) (by simp [ConfigFile.dumpItems] at h; omega)
    simp only [ConfigFile.dumpItems, scanItems, hv]
  | .cons v' l' =>
    obtain ⟨n, rfl⟩ : ∃ k, n = k + 1 := ⟨n - 1, by omega⟩
    have hv := scan_dump v n (.comma :: (ConfigFile.dumpItems (.cons v' l') ++ .rbracket :: r)) (by simp [ConfigFile.dumpItems] at h; omega)
    have hm := scanItems_dump v' l' n r (by simp [ConfigFile.dumpItems] at h ⊢; omega)
    simp only [ConfigFile.dumpItems, List.cons_append, List.append_assoc, scanItems, hv]
    rw [hm]
    rfl
termination_by sizeOf v + sizeOf l

/-- Reading the items of a dictionary which were written. -/
theorem scanFields_dump (k : String) (v : J) (l : Fields) (n : Nat) (r : List ConfigFile.Tok) (h : (dumpFields (.cons k v l)).length < n) :
    scanFields n (dumpFields (.cons k v l) ++ .rbrace :: r) = some (.cons k v l, r) := by
  match l with
  | .nil =>
    obtain ⟨n, rfl⟩ : ∃ k, n = k + 1 := ⟨n - 1, by simp [dumpFields] at h; omega⟩
    have hv := scan_dump v n (.rbrace :: r) (by simp [dumpFields] at h; omega)
    simp only [dumpFields, List.cons_append, scanFields, hv]
  | .cons k' v' l' =>
    obtain ⟨n, rfl⟩ : ∃ k, n = k + 1 := ⟨n - 1, by simp [dumpFields] at h; omega⟩
    have hv := scan_dump v n (.comma :: (dumpFields (.cons k' v' l') ++ .rbrace :: r)) (by simp [dumpFields] at h; omega)
    have hm := scanFields_dump k' v' l' n r (by simp [dumpFields] at h ⊢; omega)
    simp only [dumpFields, List.cons_append, List.append_assoc, scanFields, hv]
    rw [hm]
    rfl
termination_by sizeOf v + sizeOf l
end

/-- `json.load` of what `json.dump` wrote. -/
theorem load_dump (v : J) : load (dump v) = some v := by
  have := scan_dump v ((dump v).length + 1) [] (by omega)
  rw [List.append_nil] at this
  unfold load
  rw [this]

theorem wordValue_dump {s : String} {v : J} (h : wordValue s = some v) : dump v = [.word s] := by
  unfold wordValue at h
  split_ifs at h with h1 h2 h3 h4 h5 h6 <;> simp only [Option.some.injEq] at h <;> subst h <;> simp [dump, floatTok, *]

/-- What is read is the text of the value, of the items or of the fields which are found. -/
theorem scan_sound (n : Nat) : (∀ t v r, scan n t = some (v, r) → t = dump v ++ r) ∧
    (∀ t l r, scanItems n t = some (l, r) → l ≠ .nil ∧ t = ConfigFile.dumpItems l ++ .rbracket :: r) ∧
    ∀ t f r, scanFields n t = some (f, r) → f ≠ .nil ∧ t = dumpFields f ++ .rbrace :: r := by
  induction n with
  | zero => exact ⟨fun t v r h => by simp [scan] at h, fun t l r h => by simp [scanItems] at h, fun t f r h => by simp [scanFields] at h⟩
  | succ n ih =>
    obtain ⟨i1, i2, i3⟩ := ih
    refine ⟨fun t v r h => ?_, fun t l r h => ?_, fun t f r h => ?_⟩
    · rw [scan.eq_def] at h
      simp only at h
      split at h
      · simp only [Option.some.injEq, Prod.mk.injEq] at h
        obtain ⟨rfl, rfl⟩ := h
        simp [dump]
      · simp only [Option.some.injEq, Prod.mk.injEq] at h
        obtain ⟨rfl, rfl⟩ := h
        simp [dump, floatTok]
      · simp only [Option.some.injEq, Prod.mk.injEq] at h
        obtain ⟨rfl, rfl⟩ := h
        simp [dump]
      · simp only [Option.map_eq_some_iff, Prod.mk.injEq] at h
        obtain ⟨v', h1, rfl, rfl⟩ := h
        rw [wordValue_dump h1]
        rfl
      · simp only [Option.some.injEq, Prod.mk.injEq] at h
        obtain ⟨rfl, rfl⟩ := h
        simp [dump, ConfigFile.dumpItems]
      · simp only [Option.map_eq_some_iff, Prod.mk.injEq] at h
        obtain ⟨⟨l, r'⟩, h1, rfl, rfl⟩ := h
        rw [(i2 _ _ _ h1).2]
        simp [dump]
      · simp only [Option.some.injEq, Prod.mk.injEq] at h
        obtain ⟨rfl, rfl⟩ := h
        simp [dump, dumpFields]
      · simp only [Option.map_eq_some_iff, Prod.mk.injEq] at h
        obtain ⟨⟨l, r'⟩, h1, rfl, rfl⟩ := h
        rw [(i3 _ _ _ h1).2]
        simp [dump]
      · simp at h
    · rw [scanItems.eq_def] at h
      simp only at h
      split at h
      · rename_i v r' hv
        simp only [Option.some.injEq, Prod.mk.injEq] at h
        obtain ⟨rfl, rfl⟩ := h
        exact ⟨by simp, by rw [i1 _ _ _ hv, ConfigFile.dumpItems]⟩
      · rename_i v r' hv
        simp only [Option.map_eq_some_iff, Prod.mk.injEq] at h
        obtain ⟨⟨l', r''⟩, h1, rfl, rfl⟩ := h
        obtain ⟨e1, e2⟩ := i2 _ _ _ h1
        refine ⟨by simp, ?_⟩
        rw [i1 _ _ _ hv, e2]
        cases l' with
        | nil => exact absurd rfl e1
        | cons _ _ => simp [ConfigFile.dumpItems.eq_3]
      · simp at h
    · rw [scanFields.eq_def] at h
      simp only at h
      split at h
      · split at h
        · rename_i v r' hv
          simp only [Option.some.injEq, Prod.mk.injEq] at h
          obtain ⟨rfl, rfl⟩ := h
          exact ⟨by simp, by rw [i1 _ _ _ hv, dumpFields]; rfl⟩
        · rename_i v r' hv
          simp only [Option.map_eq_some_iff, Prod.mk.injEq] at h
          obtain ⟨⟨l', r''⟩, h1, rfl, rfl⟩ := h
          obtain ⟨e1, e2⟩ := i3 _ _ _ h1
          refine ⟨by simp, ?_⟩
          rw [i1 _ _ _ hv, e2]
          cases l' with
          | nil => exact absurd rfl e1
          | cons _ _ _ => simp [dumpFields.eq_3]
        · simp at h
      · simp at h

/-- `json.load` gives a value exactly for the text of this value. -/
theorem load_iff (t : List ConfigFile.Tok) (v : J) : load t = some v ↔ t = dump v := by
  constructor
  · intro h
    unfold load at h
    split at h
    · rename_i v' hs
      rw [Option.some.injEq] at h
      subst h
      simpa using (scan_sound _).1 _ _ _ hs
    · simp at h
  · rintro rfl
    exact load_dump v

mutual
/-- A standard text is the one `json.dump` writes, and its value holds numbers only. -/
theorem denotes_dump {v : J} {t : List ConfigFile.Tok} : Denotes v t → t = dump v ∧ allNumbers v = true
  | .null => ⟨by simp [dump], rfl⟩
  | .true => ⟨by simp [dump], rfl⟩
  | .false => ⟨by simp [dump], rfl⟩
  | .int _ => ⟨by simp [dump], rfl⟩
  | .float _ => ⟨by simp [dump, floatTok], by simp [allNumbers]⟩
  | .str _ => ⟨by simp [dump], rfl⟩
  | .emptyArray => ⟨by simp [dump, ConfigFile.dumpItems], by simp [allNumbers, allNumbersIn]⟩
  | .array h => ⟨by rw [dump, (elements_dump h).1], by rw [allNumbers]; exact (elements_dump h).2⟩
  | .emptyObject => ⟨by simp [dump, dumpFields], by simp [allNumbers, allNumbersOf]⟩
  | .object h => ⟨by rw [dump, (pairs_dump h).1], by rw [allNumbers]; exact (pairs_dump h).2⟩

theorem elements_dump {l : Js} {t : List ConfigFile.Tok} : Elements l t → t = ConfigFile.dumpItems l ∧ allNumbersIn l = true
  | .one h => ⟨by rw [ConfigFile.dumpItems, (denotes_dump h).1], by simp [allNumbersIn, (denotes_dump h).2]⟩
  | .more (l := l) h h' => ⟨by
      rw [(denotes_dump h).1, (elements_dump h').1]
      cases h' <;> rw [ConfigFile.dumpItems.eq_3], by rw [allNumbersIn, (denotes_dump h).2, (elements_dump h').2]; rfl⟩

theorem pairs_dump {l : Fields} {t : List ConfigFile.Tok} : Pairs l t → t = dumpFields l ∧ allNumbersOf l = true
  | .one h => ⟨by rw [dumpFields, (denotes_dump h).1], by simp [allNumbersOf, (denotes_dump h).2]⟩
  | .more (f := l) h h' => ⟨by
      rw [(denotes_dump h).1, (pairs_dump h').1]
      cases h' <;> rw [dumpFields.eq_3], by rw [allNumbersOf, (denotes_dump h).2, (pairs_dump h').2]; rfl⟩
end

mutual
/-- The text of a value which holds numbers only is standard. -/
theorem dump_denotes (v : J) (h : allNumbers v = true) : Denotes v (dump v) := by
  match v with
  | .null => exact .null
  | .bool true => exact .true
  | .bool false => exact .false
  | .int i => exact .int i
  | .float (.fin x) => exact .float x
  | .float .nan => simp [allNumbers] at h
  | .float .pinf => simp [allNumbers] at h
  | .float .ninf => simp [allNumbers] at h
  | .str s => exact .str s
  | .arr .nil => exact .emptyArray
  | .arr (.cons v l) => exact .array (dump_elements v l (by rwa [allNumbers] at h))
  | .obj .nil => exact .emptyObject
  | .obj (.cons k v l) => exact .object (dump_pairs k v l (by rwa [allNumbers] at h))
termination_by sizeOf v

theorem dump_elements (v : J) (l : Js) (h : allNumbersIn (.cons v l) = true) : Elements (.cons v l) (ConfigFile.dumpItems (.cons v l)) := by
  match l with
  | .nil => exact .one (dump_denotes v (by simp [allNumbersIn] at h; exact h))
  | .cons v' l' =>
    have q := (Bool.and_eq_true _ _).mp ((allNumbersIn.eq_2 _ _).symm.trans h)
    exact .more (dump_denotes v q.1) (dump_elements v' l' q.2)
termination_by sizeOf v + sizeOf l

theorem dump_pairs (k : String) (v : J) (l : Fields) (h : allNumbersOf (.cons k v l) = true) : Pairs (.cons k v l) (dumpFields (.cons k v l)) := by
  match l with
  | .nil => exact .one (dump_denotes v (by simp [allNumbersOf] at h; exact h))
  | .cons k' v' l' =>
    have q := (Bool.and_eq_true _ _).mp ((allNumbersOf.eq_2 _ _ _).symm.trans h)
    exact .more (dump_denotes v q.1) (dump_pairs k' v' l' q.2)
termination_by sizeOf v + sizeOf l
end

/-- What `json.dump` writes is standard exactly when the value holds numbers only. -/
theorem standard_iff (v : J) : StandardText (dump v) ↔ allNumbers v = true := by
  constructor
  · rintro ⟨v', h⟩
    obtain ⟨e, h⟩ := denotes_dump h
    have := load_dump v
    rw [e, load_dump, Option.some.injEq] at this
    exact this ▸ h
  · exact fun h => ⟨v, dump_denotes v h⟩

/-- A value of a dictionary which holds numbers only. -/
theorem numbers_get (f : Fields) {k : String} {v : J} (h : allNumbersOf f = true) (hk : f.get k = some v) : allNumbers v = true := by
  match f with
  | .nil => simp [Fields.get] at hk
  | .cons k' v' r =>
    rw [allNumbersOf, Bool.and_eq_true] at h
    rw [Fields.get] at hk
    split_ifs at hk
    · exact Option.some.inj hk ▸ h.1
    · exact numbers_get r h.2 hk
termination_by sizeOf f

end Text

variable {K : Type} [Field K] [LinearOrder K] [IsStrictOrderedRing K] [FloorRing K]

/-- C149, executions: the execution on a standard JSON text is the execution on the configuration it denotes. -/
theorem C149_standard_read (w : World K) (user : Fields) (t : List ConfigFile.Tok) (h : Denotes (.obj user) t) : mainFile w t = Main.main w user := by
  rw [(denotes_dump h).1]
  unfold mainFile
  rw [load_dump]

/-- C149, other files: an execution on a text which is not the text of a dictionary raises an exception and writes nothing. -/
theorem C149_other_refused (w : World K) (t : List ConfigFile.Tok) (h : ∀ user, t ≠ dump (.obj user)) : ∃ e, mainFile w t = ([], some e) := by
  unfold mainFile
  split
  · rename_i user hl
    exact absurd ((load_iff _ _).1 hl) (h user)
  · exact ⟨_, rfl⟩
  · exact ⟨_, rfl⟩

/-- A list, and a text followed by something else, are not the text of a dictionary. -/
example (w : World K) : (∃ e, mainFile w [.lbracket, .rbracket] = ([], some e)) ∧ ∃ e, mainFile w [.lbrace, .rbrace, .rbrace] = ([], some e) := by
  constructor <;>
  · refine C149_other_refused w _ fun user he => ?_
    rw [← load_iff] at he
    simp [load, scan] at he

/-- C149: the file of the configuration saved by a successful execution is read back as the saved configuration; when the configuration of the user has
neither a ROI nor an estimation, an execution on this file writes the same files; it is a standard JSON text, of the saved configuration, when the
saved configuration holds neither NaN nor infinity, and only then. Missing: it is not always a standard JSON text (`C149_false`). -/
theorem C149_config_file_partial (w : World K) (user p0 saved : Fields) (out : List (Written K)) (hw : user.wf) (hkeeps : PandoraKeeps w.pandora)
    (hm : ∀ a b, (w.marginsDict a b).wf) (hx : ∀ l r s, (w.extra l r s).1.wf ∧ (w.extra l r s).2.wf)
    (hu : user.get "pipeline" = some (.obj p0)) (h : Main.main w user = (out, none)) (hs : .config saved ∈ out) :
    load (dump (.obj saved)) = some (.obj saved) ∧
    (user.get "ROI" = none → p0.get "estimation" = none → mainFile w (dump (.obj saved)) = (out, none)) ∧
    (StandardText (dump (.obj saved)) ↔ allNumbers (.obj saved) = true) ∧
    (allNumbers (.obj saved) = true → Denotes (.obj saved) (dump (.obj saved))) := by
  refine ⟨load_dump _, fun hr he => ?_, standard_iff _, dump_denotes _⟩
  unfold mainFile
  rw [load_dump]
  exact C95_saved_again hkeeps hw hu h hs (saved_wf hkeeps hm hx hw h hs) hr he

/-- Whatever the execution, when the invalid value asked by the user is NaN the file of the saved configuration is not a standard JSON text. -/
theorem C149_nan_not_standard (w : World K) (user p0 disp saved : Fields) (out : List (Written K)) (hw : user.wf) (hpan : PandoraContract w)
    (hu : user.get "pipeline" = some (.obj p0)) (hd : p0.get "disparity" = some (.obj disp)) (hi : InvalidIs disp (.nan : F K))
    (h : Main.main w user = (out, none)) (hs : .config saved ∈ out) : ¬ StandardText (dump (.obj saved)) := by
  rw [standard_iff]
  intro ha
  obtain ⟨s⟩ := main_stages w user p0 out hw hpan hu (Fields.mem_of_get hd) h
  have hsv : saved = s.cfg3.set "margins" (w.marginsDict s.m.data.cumulative s.m.data.nonCumulative) := by
    have := s.outIs ▸ hs
    simp only [finish, List.mem_cons, reduceCtorEq, false_or] at this
    rcases this with e | e
    · exact Written.config.inj e
    · split at e <;> simp at e
  obtain ⟨-, -, -, -, hg⟩ := pipeline_new w.steps user p0 s.pl s.m hw hu s.pipeline
  obtain ⟨c, v', g1, -, g2, g3⟩ := hg _ _ hd
  obtain ⟨f, g, e1, rfl, hc⟩ := disparity_completed (Fields.wf_get p0 (Fields.wf_get user hw hu) hd) (checked_disparity.1 g1) g2
  cases e1
  obtain ⟨pl3, k1, k2⟩ := (completed_ok w _ _ _ _ _ s.completedIs).1.pipeline s.pl (by
    rw [Fields.get_set, if_neg (by decide), s.cfg1Is _ (by decide), s.pipelineIn])
  have q1 : saved.get "pipeline" = some (.obj pl3) := by rw [hsv, Fields.get_set, if_neg (by decide), k1]
  have q2 : pl3.get "disparity" = some (.obj g) := by rw [k2 _ (by decide), g3]
  have q3 : g.get "invalid_disparity" = some (.float .nan) := by
    rcases hi with ⟨v, hv, hn⟩ | ⟨-, hn⟩
    · have hnan : readValue v = .float .nan := by
        rcases hn with ⟨_, -, e⟩ | ⟨_, -, e⟩ | ⟨e, -⟩ | ⟨-, e⟩ | ⟨-, e⟩
        · exact absurd e (by simp)
        · exact absurd e (by simp)
        · exact e
        · exact absurd e (by simp)
        · exact absurd e (by simp)
      have leaf : v.isLeaf = true := by
        cases v <;> simp_all [readValue, J.isLeaf]
      have := hc.1 "invalid_disparity" [] v (by simp) (by simp [J.at, hv]) leaf
      rw [hnan] at this
      simpa [J.at] using this
    · exact absurd hn (by simp)
  rw [allNumbers] at ha
  have r1 := numbers_get _ ha q1
  rw [allNumbers] at r1
  have r2 := numbers_get _ r1 q2
  rw [allNumbers] at r2
  simpa [allNumbers] using numbers_get _ r2 q3

/-- The full statement of C149: the file of the saved configuration is always a standard JSON text. -/
def C149Statement (K : Type) [Field K] [LinearOrder K] [IsStrictOrderedRing K] [FloorRing K] : Prop :=
  ∀ (w : World K) (user p0 saved : Fields) (out : List (Written K)), user.wf → PandoraContract w → PandoraKeeps w.pandora →
    (∀ a b, (w.marginsDict a b).wf) → (∀ l r s, (w.extra l r s).1.wf ∧ (w.extra l r s).2.wf) → user.get "pipeline" = some (.obj p0) →
    Main.main w user = (out, none) → .config saved ∈ out → StandardText (dump (.obj saved))

/-! ## Examples -/

theorem exFlowFile_wf : (exUserWhole 2 1 (some exFlow) (some (.int 0))).wf := by
  simp [exUserWhole, exInput, exPipeline, exFlow, dict, Fields.append, Fields.wf, J.wf, Fields.keys]

theorem exFlowFile_runs : Main.main (exWorldOf 1) (exUserWhole 2 1 (some exFlow) (some (.int 0))) =
    ((Main.main (exWorldOf 1) (exUserWhole 2 1 (some exFlow) (some (.int 0)))).1, none) := Prod.ext rfl exFlow_runs

/-- The full statement is false: with `"invalid_disparity": "NaN"`, a value which the code documents, the saved file holds the word `NaN`. -/
theorem C149_false : ¬ C149Statement ℚ := by
  intro hst
  have ct := exWorldOf_contract 1 5 (by decide)
  obtain ⟨saved, hs⟩ := saves_config exFlowFile_runs
  exact C149_nan_not_standard _ _ _ _ saved _ exFlowFile_wf ct.pandora rfl rfl (.inl ⟨_, rfl, .inr (.inr (.inl ⟨rfl, rfl⟩))⟩) exFlowFile_runs hs
    (hst _ _ _ saved _ exFlowFile_wf ct.pandora ct.keeps (fun _ _ => trivial) (fun _ _ _ => ⟨trivial, trivial⟩) rfl exFlowFile_runs hs)

/-- Its hypotheses hold for an execution whose saved configuration holds a NaN: the file can be executed again and gives the same files. -/
example : ∃ out saved, Main.main (exWorldOf 1) (exUserWhole 2 1 (some exFlow) (some (.int 0))) = (out, none) ∧ .config saved ∈ out ∧
    mainFile (exWorldOf 1) (dump (.obj saved)) = (out, none) ∧ ¬ StandardText (dump (.obj saved)) := by
  have ct := exWorldOf_contract 1 5 (by decide)
  obtain ⟨saved, hs⟩ := saves_config exFlowFile_runs
  exact ⟨_, saved, exFlowFile_runs, hs, (C149_config_file_partial _ _ _ saved _ exFlowFile_wf ct.keeps (fun _ _ => trivial)
    (fun _ _ _ => ⟨trivial, trivial⟩) rfl exFlowFile_runs hs).2.1 rfl rfl,
    C149_nan_not_standard _ _ _ _ saved _ exFlowFile_wf ct.pandora rfl rfl (.inl ⟨_, rfl, .inr (.inr (.inl ⟨rfl, rfl⟩))⟩) exFlowFile_runs hs⟩

/-- A configuration without NaN: the default invalid value, an integer. -/
def exUserNumbers : Fields := dict [
  ("input", .obj (dict [("left", .obj (dict [("img", .str "left.tif")])), ("right", .obj (dict [("img", .str "right.tif")])),
    ("row_disparity", .obj (dict [("init", .int 1), ("range", .int 1)])), ("col_disparity", .obj (dict [("init", .int 0), ("range", .int 1)]))])),
  ("pipeline", .obj (dict [
    ("matching_cost", .obj (dict [("matching_cost_method", .str "zncc"), ("window_size", .int 1)])),
    ("disparity", .obj (dict [("disparity_method", .str "wta")]))]))]

/-- The file of its saved configuration is standard, and can be executed again. -/
example : ∃ out saved, Main.main (exWorldOf 0) exUserNumbers = (out, none) ∧ .config saved ∈ out ∧ saved ≠ exUserNumbers ∧
    Denotes (.obj saved) (dump (.obj saved)) ∧ mainFile (exWorldOf 0) (dump (.obj saved)) = (out, none) := by
  have h : (Main.main (exWorldOf 0) exUserNumbers).2 = none := by decide +kernel
  have h' : Main.main (exWorldOf 0) exUserNumbers = ((Main.main (exWorldOf 0) exUserNumbers).1, none) := Prod.ext rfl h
  have h2 : (savedOf (Main.main (exWorldOf 0) exUserNumbers).1).map (fun c => (allNumbers (.obj c), decide (c = exUserNumbers))) = some (true, false) := by
    decide +kernel
  have ct := exWorldOf_contract 0 5 (by decide)
  cases ho : (Main.main (exWorldOf 0) exUserNumbers).1 with
  | nil => rw [ho] at h2; simp [savedOf] at h2
  | cons a l =>
    cases l with
    | nil => rw [ho] at h2; simp [savedOf] at h2
    | cons b l =>
      cases l with
      | nil => rw [ho] at h2; simp [savedOf] at h2
      | cons c l =>
        cases c with
        | config saved =>
          rw [ho] at h2 h'
          simp only [savedOf, Option.map_some, Option.some.injEq, Prod.mk.injEq, decide_eq_false_iff_not] at h2
          have hs : Written.config saved ∈ a :: b :: .config saved :: l := by simp
          have hw : exUserNumbers.wf := by simp [exUserNumbers, dict, Fields.wf, J.wf, Fields.keys]
          obtain ⟨-, k1, -, k2⟩ := C149_config_file_partial _ _ _ saved _ hw ct.keeps (fun _ _ => trivial) (fun _ _ _ => ⟨trivial, trivial⟩) rfl h' hs
          exact ⟨_, saved, h', hs, h2.2, k2 h2.1, k1 rfl rfl⟩
        | _ => rw [ho] at h2; simp [savedOf] at h2

end Verif.Props
