import Verif.Props.MainReport
import Verif.Spec.ReportFile

/-!
# Property C139: the report can be read by a standard JSON reader
-/

set_option linter.unusedSectionVars false

namespace Verif.Props

open Verif Verif.Config Verif.Machine Verif.ImgTools Verif.MatchingCost Verif.Disparity Verif.Estimation Verif.Run Verif.Main Verif.Spec
  Verif.Save Verif.Statistics Verif.ReportFile

section Text
variable {K : Type}

/-- A float which is a number. -/
def numOf : F K → Option K
  | .fin x => some x
  | _ => none

/-- An object from the list of its members. -/
def members : List (String × Json K) → Json K := fun l => .obj (l.foldr (fun i r => .cons i.1 i.2 r) .nil)

mutual
/-- The same document when its leaves are all numbers. -/
def docNum : Doc (F K) → Option (Json K)
  | .num x => (numOf x).map .num
  | .obj l => (itemsNum l).map .obj

/-- The same items when their leaves are all numbers. -/
def itemsNum : Items (F K) → Option (Members K)
  | .nil => some .nil
  | .cons k v r => (docNum v).bind fun d => (itemsNum r).map fun l => .cons k d l
end

mutual
/-- Reading what was written. -/
theorem jsonValue_dump (D : Doc (F K)) (n : Nat) (r : List (Tok K)) (h : (dump D).length ≤ n) :
    jsonValue n (dump D ++ r) = (docNum D).map fun d => (d, r) := by
  match D with
  | .num x =>
    obtain ⟨n, rfl⟩ : ∃ k, n = k + 1 := ⟨n - 1, by simp [dump] at h; omega⟩
    cases x <;> simp [dump, floatText, jsonValue, docNum, numOf]
  | .obj .nil =>
    obtain ⟨n, rfl⟩ : ∃ k, n = k + 1 := ⟨n - 1, by simp [dump] at h; omega⟩
    simp [dump, dumpItems, jsonValue, docNum, itemsNum]
  | .obj (.cons k v l) =>
    obtain ⟨n, rfl⟩ : ∃ k, n = k + 1 := ⟨n - 1, by simp [dump] at h; omega⟩
    have hm := jsonMembers_dump k v l n r (by simp [dump] at h; omega)
    obtain ⟨t, ht⟩ : ∃ t, dumpItems (.cons k v l) = .str k :: .colon :: t := by
      cases l <;> exact ⟨_, by rw [dumpItems]⟩
    simp only [dump, List.cons_append, List.append_assoc, List.nil_append]
    rw [ht] at hm ⊢
    simp only [List.cons_append] at hm ⊢
    simp only [jsonValue, hm, docNum, Option.map_map]
    rfl
termination_by sizeOf D

/-- Reading items which were written. -/
theorem jsonMembers_dump (k : String) (v : Doc (F K)) (l : Items (F K)) (n : Nat) (r : List (Tok K)) (h : (dumpItems (.cons k v l)).length ≤ n) :
    jsonMembers n (dumpItems (.cons k v l) ++ .rbrace :: r) = (itemsNum (.cons k v l)).map fun d => (d, r) := by
  match l with
  | .nil =>
    obtain ⟨n, rfl⟩ : ∃ k, n = k + 1 := ⟨n - 1, by simp [dumpItems] at h; omega⟩
    have hv := jsonValue_dump v n (.rbrace :: r) (by simp [dumpItems] at h; omega)
    simp only [dumpItems, List.cons_append, jsonMembers, hv, itemsNum]
    cases docNum v <;> simp
  | .cons k' v' l' =>
    obtain ⟨n, rfl⟩ : ∃ k, n = k + 1 := ⟨n - 1, by simp [dumpItems] at h; omega⟩
    have hv := jsonValue_dump v n (.comma :: (dumpItems (.cons k' v' l') ++ .rbrace :: r)) (by simp [dumpItems] at h; omega)
    have hm := jsonMembers_dump k' v' l' n r (by simp [dumpItems] at h ⊢; omega)
    rw [itemsNum]
    simp only [dumpItems, List.cons_append, List.append_assoc, jsonMembers, hv]
    cases hd : docNum v
    · simp
    · simp only [Option.map_some, Option.bind_some]
      rw [hm]
      simp [Option.map_map, Function.comp_def]
termination_by sizeOf v + sizeOf l
end

theorem readJson_dump (D : Doc (F K)) : readJson (dump D) = docNum D := by
  have := jsonValue_dump D (dump D).length [] le_rfl
  rw [List.append_nil] at this
  unfold readJson
  rw [this]
  cases docNum D <;> rfl

theorem numOf_some {x : F K} {m : K} : numOf x = some m ↔ x = .fin m := by cases x <;> simp [numOf]

/-- The statistics of one axis are read exactly when they are numbers. -/
theorem docNum_toDict (s : Stats K) (a b c d e : F K) (hq : s.quantiles = [a, b, c, d, e]) (D : Json K) :
    docNum (toDict s) = some D ↔ ∃ m t a' b' c' d' e' x, s.mean = .fin m ∧ s.std = .fin t ∧ a = .fin a' ∧ b = .fin b' ∧ c = .fin c' ∧
      d = .fin d' ∧ e = .fin e' ∧ s.ratio = .fin x ∧
      D = members [("mean", .num m), ("std", .num t),
        ("quantiles", members [("p10", .num a'), ("p25", .num b'), ("p50", .num c'), ("p75", .num d'), ("p90", .num e')]),
        ("minimal_valid_pixel_ratio", .num x)] := by
  simp only [toDict, hq, record, List.zip_cons_cons, List.zip_nil_left, List.map_cons, List.map_nil, List.foldr_cons, List.foldr_nil, docNum, itemsNum,
    Option.bind_eq_some_iff, Option.map_eq_some_iff, numOf_some, Option.some.injEq]
  constructor
  · rintro ⟨_, ⟨_, ⟨m, hm, rfl⟩, ⟨_, ⟨_, ⟨t, ht, rfl⟩, ⟨_, ⟨_, ⟨_, ⟨_, ⟨a', ha, rfl⟩, ⟨_, ⟨_, ⟨b', hb, rfl⟩, ⟨_, ⟨_, ⟨c', hc, rfl⟩, ⟨_, ⟨_, ⟨d', hd, rfl⟩,
      ⟨_, ⟨_, ⟨e', he, rfl⟩, _, rfl, rfl⟩, rfl⟩⟩, rfl⟩⟩, rfl⟩⟩, rfl⟩⟩, rfl⟩, ⟨_, ⟨_, ⟨x, hx, rfl⟩, _, rfl, rfl⟩, rfl⟩⟩, rfl⟩⟩, rfl⟩⟩, rfl⟩
    exact ⟨m, t, a', b', c', d', e', x, hm, ht, ha, hb, hc, hd, he, hx, rfl⟩
  · rintro ⟨m, t, a', b', c', d', e', x, hm, ht, ha, hb, hc, hd, he, hx, rfl⟩
    exact ⟨_, ⟨_, ⟨m, hm, rfl⟩, ⟨_, ⟨_, ⟨t, ht, rfl⟩, ⟨_, ⟨_, ⟨_, ⟨_, ⟨a', ha, rfl⟩, ⟨_, ⟨_, ⟨b', hb, rfl⟩, ⟨_, ⟨_, ⟨c', hc, rfl⟩, ⟨_, ⟨_, ⟨d', hd, rfl⟩,
      ⟨_, ⟨_, ⟨e', he, rfl⟩, _, rfl, rfl⟩, rfl⟩⟩, rfl⟩⟩, rfl⟩⟩, rfl⟩⟩, rfl⟩, ⟨_, ⟨_, ⟨x, hx, rfl⟩, _, rfl, rfl⟩, rfl⟩⟩, rfl⟩⟩, rfl⟩⟩, rfl⟩

/-- What is read in the report. -/
theorem readJson_report (row col : Stats K) (D : Json K) : readJson (reportFile row col) = some D ↔
    ∃ R C, docNum (toDict row) = some R ∧ docNum (toDict col) = some C ∧
      D = members [("statistics", members [("disparity", members [("row", R), ("col", C)])])] := by
  rw [reportFile, readJson_dump]
  simp only [record, List.foldr_cons, List.foldr_nil, docNum, itemsNum, Option.bind_eq_some_iff, Option.map_eq_some_iff, Option.some.injEq]
  constructor
  · rintro ⟨_, ⟨_, ⟨_, ⟨_, ⟨_, ⟨R, hR, _, ⟨C, hC, _, rfl, rfl⟩, rfl⟩, rfl⟩, _, rfl, rfl⟩, rfl⟩, _, rfl, rfl⟩, rfl⟩
    exact ⟨R, C, hR, hC, rfl⟩
  · rintro ⟨R, C, hR, hC, rfl⟩
    exact ⟨_, ⟨_, ⟨_, ⟨_, ⟨_, ⟨R, hR, _, ⟨C, hC, _, rfl, rfl⟩, rfl⟩, rfl⟩, _, rfl, rfl⟩, rfl⟩, _, rfl, rfl⟩, rfl⟩

end Text

section Statistics
variable {K : Type} [Field K] [LinearOrder K] [IsStrictOrderedRing K]

theorem mem_filePixels (f : File K (F K)) (v : F K) : v ∈ filePixels f ↔ ∃ i < f.h, ∃ j < f.w, f.values i j = v := by
  simp [filePixels]

/-- A raster without infinity has a list of valid values, which is empty when it has no valid pixel. -/
theorem validValues_exists {f : File K (F K)} {invalid : F K} (h : NoInfinity f invalid) :
    ∃ xs : List K, ValidValues (some invalid) (filePixels f) xs ∧ (xs ≠ [] ↔ HasValid f invalid) := by
  classical
  have hv : ∀ v ∈ (filePixels f).filter (fun v => decide (ValidFor (some invalid) v)), ∃ x, v = F.fin x := by
    intro v hv
    rw [List.mem_filter, mem_filePixels, decide_eq_true_eq] at hv
    obtain ⟨⟨i, hi, j, hj, rfl⟩, n1, n2⟩ := hv
    rcases h i hi j hj with q | q | q
    · exact absurd (congrArg some q) n2
    · exact absurd q n1
    · exact q
  refine ⟨((filePixels f).filter fun v => decide (ValidFor (some invalid) v)).filterMap numOf, ?_, ?_⟩
  · unfold ValidValues
    have : ∀ l : List (F K), (∀ v ∈ l, ∃ x, v = F.fin x) → (l.filterMap numOf).map F.fin = l := by
      intro l hl
      induction l with
      | nil => rfl
      | cons v l ih =>
        obtain ⟨x, rfl⟩ := hl v (by simp)
        simpa [numOf] using ih fun u hu => hl u (by simp [hu])
    rw [this _ fun v hm => hv v (by convert hm)]
  · constructor
    · intro hne
      obtain ⟨x, hx⟩ := List.exists_mem_of_ne_nil _ hne
      obtain ⟨v, hm, -⟩ := List.mem_filterMap.1 hx
      rw [List.mem_filter, mem_filePixels, decide_eq_true_eq] at hm
      obtain ⟨⟨i, hi, j, hj, rfl⟩, n1, n2⟩ := hm
      exact ⟨i, hi, j, hj, n1, fun q => n2 (congrArg some q)⟩
    · rintro ⟨i, hi, j, hj, n1, n2⟩
      have hm : f.values i j ∈ (filePixels f).filter (fun v => decide (ValidFor (some invalid) v)) := by
        rw [List.mem_filter, mem_filePixels, decide_eq_true_eq]
        exact ⟨⟨i, hi, j, hj, rfl⟩, n1, fun q => n2 (Option.some.inj q)⟩
      obtain ⟨x, hx⟩ := hv _ hm
      exact List.ne_nil_of_mem (List.mem_filterMap.2 ⟨_, hm, by rw [hx]; rfl⟩)

/-- The statistics of a raster are numbers exactly when it has a valid pixel. -/
theorem stats_number {sqrt : F K → F K} (hsq : ∀ x, 0 ≤ x → ∃ s, sqrt (.fin x) = .fin s) {f : File K (F K)} {invalid : F K}
    (h : NoInfinity f invalid) :
    (HasValid f invalid ↔ ∃ D, docNum (toDict (computeStatistics sqrt (filePixels f) (some invalid))) = some D) ∧
    ∀ D axis E, docNum (toDict (computeStatistics sqrt (filePixels f) (some invalid))) = some D →
      (∀ ks, numberAt E ("statistics" :: "disparity" :: axis :: ks) = numberAt D ks) → ReportsFile sqrt E axis f invalid := by
  obtain ⟨xs, hx, hn⟩ := validValues_exists h
  by_cases hv : HasValid f invalid
  · have hne := hn.2 hv
    obtain ⟨m, m1, m2⟩ := C55_mean (sqrt := sqrt) hx hne
    obtain ⟨m', v, s1, s2, s3, s4⟩ := C55_std (sqrt := sqrt) hx hne
    obtain ⟨sd, hsd⟩ := hsq v s3
    obtain ⟨q, q1, q2⟩ := C55_quantiles (sqrt := sqrt) hx hne
    obtain ⟨i, hi, j, hj, -⟩ := id hv
    obtain ⟨x, x1, x2, x3⟩ := C55_ratio_range (sqrt := sqrt) (invalid := some invalid) (l := filePixels f)
      (List.ne_nil_of_mem ((mem_filePixels f _).2 ⟨i, hi, j, hj, rfl⟩))
    rw [hsd] at s4
    have key := fun D => docNum_toDict _ _ _ _ _ _ q1 D
    refine ⟨iff_of_true hv ⟨_, (key _).2 ⟨m, sd, _, _, _, _, _, x, m1, s4, rfl, rfl, rfl, rfl, rfl, x1, rfl⟩⟩, ?_⟩
    intro D axis E hD hE
    obtain ⟨m0, t0, a', b', c', d', e', x', e1, e2, e3, e4, e5, e6, e7, e8, rfl⟩ := (key D).1 hD
    rw [m1, F.fin.injEq] at e1
    rw [s4, F.fin.injEq] at e2
    rw [x1, F.fin.injEq] at e8
    simp only [F.fin.injEq] at e3 e4 e5 e6 e7
    subst e1 e2 e3 e4 e5 e6 e7 e8
    refine ⟨⟨xs, m, hx, m2, ?_⟩, ⟨xs, m', v, sd, hx, s1, s2, hsd, ?_⟩, ⟨xs, hx, ?_⟩, ⟨x, ?_, x2, x3⟩⟩
    · rw [hE]; rfl
    · rw [hE]; rfl
    · intro k p hkp
      rw [hE]
      simp only [List.mem_cons, Prod.mk.injEq, List.not_mem_nil, or_false] at hkp
      rcases hkp with ⟨rfl, rfl⟩ | ⟨rfl, rfl⟩ | ⟨rfl, rfl⟩ | ⟨rfl, rfl⟩ | ⟨rfl, rfl⟩ <;>
      exact ⟨_, q2 _ (by decide), rfl⟩
    · rw [hE]; rfl
  · obtain ⟨n1, n2, n3⟩ := C55_nothing_valid (sqrt := sqrt) (l := filePixels f) (invalid := some invalid) (by
      intro v hm hval
      obtain ⟨i, hi, j, hj, rfl⟩ := (mem_filePixels f v).1 hm
      exact hv ⟨i, hi, j, hj, hval.1, fun q => hval.2 (congrArg some q)⟩)
    have key : ∀ D, docNum (toDict (computeStatistics sqrt (filePixels f) (some invalid))) ≠ some D := by
      intro D hD
      obtain ⟨m, _, _, _, _, _, _, _, e1, -⟩ := (docNum_toDict _ _ _ _ _ _ n3 D).1 hD
      rw [n1] at e1
      simp at e1
    exact ⟨iff_of_false hv fun ⟨D, hD⟩ => key D hD, fun D _ _ hD => absurd hD (key D)⟩

end Statistics

section
variable {K : Type} [Field K] [LinearOrder K] [IsStrictOrderedRing K] [FloorRing K]

/-- C139 (part that holds): for every successful execution with a disparity step and without ROI, any steps before and after, whose rasters hold no
infinity, a reader of standard JSON understands `report.json` exactly when each of the two rasters of disparities has a valid pixel; it then
finds, under their names, the statistics of the valid pixels of the two rasters. Missing: the executions where nothing is valid
(`C139_false`). -/
theorem C139_report_file_partial (w : World K) (user p0 disp : Fields) (out : List (Written K)) (invalid : F K) (hw : user.wf)
    (hpan : PandoraContract w) (hsq : ∀ x, 0 ≤ x → ∃ s, w.sqrt (.fin x) = .fin s) (hu : user.get "pipeline" = some (.obj p0))
    (hd : p0.get "disparity" = some (.obj disp)) (hi : InvalidIs disp invalid) (hroi : user.get "ROI" = none)
    (h : Main.main w user = (out, none)) :
    ∃ files row col rest, out = .rasters files :: .report row col :: rest ∧
      (NoInfinity files.row invalid → NoInfinity files.col invalid →
        ((readJson (reportFile row col)).isSome ↔ HasValid files.row invalid ∧ HasValid files.col invalid) ∧
        ∀ D, readJson (reportFile row col) = some D → ReportsFile w.sqrt D "row" files.row invalid ∧ ReportsFile w.sqrt D "col" files.col invalid) := by
  obtain ⟨s⟩ := main_stages w user p0 out hw hpan hu ((Fields.get_isSome p0 _).1 (by rw [hd]; rfl)) h
  have a5 := s.mapsShape.2.2.2
  obtain ⟨disp', n1, n2⟩ := s.reads.disparity
  rw [hd, Option.some.injEq, J.obj.injEq] at n1
  subst n1
  obtain rfl := InvalidIs.unique hi n2
  have hf := s.fullPixels hroi
  refine ⟨s.files, _, _, _, s.outIs, fun f1 f2 => ?_⟩
  obtain ⟨r1, r2⟩ := stats_number hsq f1
  obtain ⟨c1, c2⟩ := stats_number hsq f2
  simp only [reportDisparities, a5, hf.1, hf.2]
  constructor
  · rw [Option.isSome_iff_exists, r1, c1]
    constructor
    · rintro ⟨D, hD⟩
      obtain ⟨R, C, hR, hC, -⟩ := (readJson_report _ _ D).1 hD
      exact ⟨⟨R, hR⟩, ⟨C, hC⟩⟩
    · rintro ⟨⟨R, hR⟩, ⟨C, hC⟩⟩
      exact ⟨_, (readJson_report _ _ _).2 ⟨R, C, hR, hC, rfl⟩⟩
  · intro D hD
    obtain ⟨R, C, hR, hC, rfl⟩ := (readJson_report _ _ D).1 hD
    exact ⟨r2 R "row" _ hR fun ks => by simp [members, numberAt, itemOf], c2 C "col" _ hC fun ks => by simp [members, numberAt, itemOf]⟩

/-- The full statement of C139: the report of a successful execution is always a standard JSON text. -/
def C139Statement (K : Type) [Field K] [LinearOrder K] [IsStrictOrderedRing K] [FloorRing K] : Prop :=
  ∀ (w : World K) (user p0 disp : Fields) (out : List (Written K)) (invalid : F K), user.wf → PandoraContract w →
    (∀ x, 0 ≤ x → ∃ s, w.sqrt (.fin x) = .fin s) → user.get "pipeline" = some (.obj p0) → p0.get "disparity" = some (.obj disp) →
    InvalidIs disp invalid → user.get "ROI" = none → Main.main w user = (out, none) →
    ∃ files row col rest, out = .rasters files :: .report row col :: rest ∧ (readJson (reportFile row col)).isSome

end

/-- The same pair when all the pixels of the left image are no-data. -/
def exWorldNone : World ℚ := { exWorld with
  files := ⟨fun v roi =>
    let img := if isLeftSection v then { exLeftImg with im := fun _ _ => .nan, msk := some fun _ _ => 1, noData := .nan } else exRightImg
    match roi with
    | none => .ok img
    | some R => .ok (cropImg img R), fun _ => ⟨5, 3, fun r _ => if r < 3 then 1 else 0⟩⟩ }

theorem exWorldNone_pandora : PandoraContract exWorldNone := ⟨exWorld_pandora.1, exWorld_pandora.2⟩

theorem exUserEstimation_wf : exUserEstimation.wf := by simp [exUserEstimation, dict, Fields.wf, J.wf, Fields.keys]

/-- C139 is false: when no pixel of the left image is valid, the execution succeeds and its report holds the word `NaN`, which is not JSON. -/
theorem C139_false : ¬ C139Statement ℚ := by
  intro hst
  have h : (Main.main exWorldNone exUserEstimation).2 = none := by decide +kernel
  obtain ⟨files, row, col, rest, o, hj⟩ := hst exWorldNone exUserEstimation _ _ _ (.fin (-9999)) exUserEstimation_wf exWorldNone_pandora
    (fun x _ => ⟨x, rfl⟩) rfl rfl (.inr ⟨rfl, rfl⟩) rfl (show Main.main exWorldNone exUserEstimation = (_, none) by rw [← h])
  have h2 : (reportOf (Main.main exWorldNone exUserEstimation).1).map (fun x => (readJson (reportFile x.1 x.2)).isSome) = some false := by
    decide +kernel
  rw [o] at h2
  simp only [reportOf, Option.map_some, Option.some.injEq] at h2
  rw [h2] at hj
  exact Bool.false_ne_true hj

/-- The hypotheses of the partial theorem hold: the rasters of this execution hold no infinity, both have a valid pixel, and a standard reader
finds the statistics of the valid pixels. -/
example : ∃ files row col rest D, (Main.main exWorld exUserEstimation).1 = .rasters files :: .report row col :: rest ∧
    readJson (reportFile row col) = some D ∧ ReportsFile exWorld.sqrt D "row" files.row (.fin (-9999)) ∧
    ReportsFile exWorld.sqrt D "col" files.col (.fin (-9999)) := by
  have h : (Main.main exWorld exUserEstimation).2 = none := by decide +kernel
  obtain ⟨files, row, col, rest, o, key⟩ := C139_report_file_partial exWorld exUserEstimation _ _ _ _ exUserEstimation_wf exWorld_pandora
    (fun x _ => ⟨x, rfl⟩) rfl rfl (.inr ⟨rfl, rfl⟩) rfl (show Main.main exWorld exUserEstimation = (_, none) by rw [← h])
  have h2 : (rastersOf (Main.main exWorld exUserEstimation).1).map (fun f => (((f.row.h, f.row.w), (f.col.h, f.col.w)), f.row.values 0 0,
      f.col.values 0 0, ((List.range 5).all fun i => (List.range 3).all fun j => (numOf (f.row.values i j)).isSome && (numOf (f.col.values i j)).isSome))) =
      some (((5, 3), (5, 3)), .fin 1, .fin 0, true) := by decide +kernel
  rw [o] at h2
  simp only [rastersOf, Option.map_some, Option.some.injEq, Prod.mk.injEq, List.all_eq_true, List.mem_range, Bool.and_eq_true,
    Option.isSome_iff_exists, numOf_some] at h2
  obtain ⟨⟨⟨a, b⟩, c, d⟩, e, f, g⟩ := h2
  obtain ⟨k1, k2⟩ := key (fun i hi j hj => .inr (.inr (g i (a ▸ hi) j (b ▸ hj)).1)) (fun i hi j hj => .inr (.inr (g i (c ▸ hi) j (d ▸ hj)).2))
  obtain ⟨D, hD⟩ := Option.isSome_iff_exists.1 (k1.2 ⟨⟨0, by omega, 0, by omega, by rw [e]; decide, by rw [e]; decide⟩,
    ⟨0, by omega, 0, by omega, by rw [f]; decide, by rw [f]; decide⟩⟩)
  exact ⟨files, row, col, rest, D, o, hD, k2 D hD⟩

end Verif.Props
