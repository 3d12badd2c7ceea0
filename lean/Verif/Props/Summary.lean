import Verif.Spec.Summary
import Verif.Props.Profiling
import Mathlib.Tactic.Linarith
import Mathlib.Algebra.Order.BigOperators.Group.List
import Mathlib.Algebra.Order.Field.Basic
import Mathlib.Tactic.FieldSimp
import Mathlib.Tactic.Ring
import Mathlib.Tactic.NormNum

/-!
# Properties C83, C84, C85: the summary of the profiling
-/

namespace Verif.Props

open Verif Verif.Profiling Verif.Spec

theorem column_eq (f : Perf → Option ℚ) (l : List Perf) (n : String) : column f l n = readings f l n := by
  unfold column readings
  induction l with
  | nil => rfl
  | cons p l ih =>
    by_cases h : p.name = n
    · rw [List.filter_cons_of_pos (by simpa using h)]
      simp only [List.filterMap_cons, h, if_true]
      cases f p <;> simp [ih]
    · rw [List.filter_cons_of_neg (by simpa using h)]
      simp [h, ih]

theorem groups_perm (l : List Perf) : (groups l).Perm (l.map Perf.name).dedup := List.perm_insertionSort _ _

theorem groups_nodup (l : List Perf) : (groups l).Nodup := (groups_perm l).nodup_iff.2 (List.nodup_dedup _)

theorem mem_groups (l : List Perf) (n : String) : n ∈ groups l ↔ ∃ p ∈ l, p.name = n := by
  rw [(groups_perm l).mem_iff, List.mem_dedup, List.mem_map]

/-- A quantity added over the groups is added over the lines. -/
theorem sum_groups {M : Type} [AddCommMonoid M] (g : Perf → M) (l : List Perf) (ns : List String) (hn : ns.Nodup)
    (hl : ∀ p ∈ l, p.name ∈ ns) :
    (ns.map fun n => ((l.filter fun p => decide (p.name = n)).map g).sum).sum = (l.map g).sum := by
  induction l with
  | nil => simp
  | cons p l ih =>
    have h1 := ih fun q hq => hl q (List.mem_cons_of_mem _ hq)
    rw [List.map_cons, List.sum_cons, ← h1]
    have hp := hl p List.mem_cons_self
    clear h1 ih hl
    induction ns with
    | nil => simp at hp
    | cons n ns ih =>
      rw [List.nodup_cons] at hn
      simp only [List.map_cons, List.sum_cons]
      by_cases e : p.name = n
      · subst e
        rw [List.filter_cons_of_pos (by simp), List.map_cons, List.sum_cons]
        have : (ns.map fun n => (((p :: l).filter fun q => decide (q.name = n)).map g).sum) =
            ns.map fun n => ((l.filter fun q => decide (q.name = n)).map g).sum := by
          apply List.map_congr_left
          intro n' hn'
          rw [List.filter_cons_of_neg]
          simp only [decide_eq_true_eq]
          rintro rfl
          exact hn.1 hn'
        rw [this, add_assoc]
      · rw [List.filter_cons_of_neg (by simpa using e), ih hn.2 (by
          rcases List.mem_cons.1 hp with h | h
          · exact absurd h e
          · exact h)]
        rw [← add_assoc, ← add_assoc, add_comm (g p)]

/-- C83: the bars of the number of calls: one by function of the file, the number of its lines; together, all the lines. -/
theorem C83_calls (l : List Perf) :
    OneBarEach (summary l).calls l ∧ (∀ n k, (n, k) ∈ (summary l).calls → k = (l.map Perf.name).count n ∧ 0 < k) ∧
    ((summary l).calls.map Prod.snd).sum = l.length := by
  have hfst : (summary l).calls.map Prod.fst = groups l := by simp [summary, Function.comp_def]
  refine ⟨⟨by rw [hfst]; exact groups_nodup l, fun n => by rw [hfst]; exact mem_groups l n⟩, ?_, ?_⟩
  · intro n k h
    simp only [summary, List.mem_map, Prod.mk.injEq] at h
    obtain ⟨n', hn', rfl, rfl⟩ := h
    rw [mem_groups] at hn'
    obtain ⟨p, hp, rfl⟩ := hn'
    constructor
    · rw [List.count_eq_countP, List.countP_map, List.countP_eq_length_filter]
      congr 1
    · exact List.length_pos_of_mem (List.mem_filter.2 ⟨hp, by simp⟩)
  · have h := sum_groups (fun _ : Perf => (1 : Nat)) l (groups l) (groups_nodup l) fun p hp => (mem_groups l _).2 ⟨p, hp, rfl⟩
    simp only [List.map_const', List.sum_replicate, nsmul_eq_mul, mul_one, Nat.cast_id] at h
    rw [← h]
    simp [summary, Function.comp_def]

/-- Sum and mean of a list of numbers. -/
theorem mean_between (l : List ℚ) (h : l ≠ []) : ∃ a ∈ l, ∃ b ∈ l, a ≤ l.sum / l.length ∧ l.sum / l.length ≤ b := by
  have hlen : (0 : ℚ) < l.length := by
    have := List.length_pos_iff.2 h
    exact_mod_cast this
  have key : ∀ l : List ℚ, l ≠ [] → (∃ a ∈ l, a * l.length ≤ l.sum) ∧ ∃ b ∈ l, l.sum ≤ b * l.length := by
    intro l hl
    induction l with
    | nil => exact absurd rfl hl
    | cons x l ih =>
      by_cases hl' : l = []
      · subst hl'
        simp
      · obtain ⟨⟨a, ha, ha'⟩, b, hb, hb'⟩ := ih hl'
        simp only [List.length_cons, List.sum_cons, Nat.cast_add, Nat.cast_one]
        have hlen : (0 : ℚ) ≤ l.length := by positivity
        constructor
        · rcases le_total x a with hx | hx
          · exact ⟨x, List.mem_cons_self, by nlinarith⟩
          · exact ⟨a, List.mem_cons_of_mem _ ha, by nlinarith⟩
        · rcases le_total x b with hx | hx
          · exact ⟨b, List.mem_cons_of_mem _ hb, by nlinarith⟩
          · exact ⟨x, List.mem_cons_self, by nlinarith⟩
  obtain ⟨⟨a, ha, ha'⟩, b, hb, hb'⟩ := key l h
  exact ⟨a, ha, b, hb, (le_div_iff₀ hlen).2 ha', (div_le_iff₀ hlen).2 hb'⟩

/-- The bars of the means and of the totals of a reading which every line has. -/
theorem bars_of (f : Perf → ℚ) (l : List Perf) :
    OneBarEach ((groups l).map fun n => (n, total (fun p => some (f p)) l n)) l ∧
    OneBarEach ((groups l).map fun n => (n, average (fun p => some (f p)) l n)) l ∧
    (((groups l).map fun n => (n, total (fun p => some (f p)) l n)).map Prod.snd).sum = (l.map f).sum ∧
    ∀ n v, (n, v) ∈ ((groups l).map fun n => (n, average (fun p => some (f p)) l n)) →
      ∃ m, v = some m ∧ (n, m * ((l.map Perf.name).count n : ℚ)) ∈ ((groups l).map fun n => (n, total (fun p => some (f p)) l n)) ∧
        ∃ p ∈ l, ∃ q ∈ l, p.name = n ∧ q.name = n ∧ f p ≤ m ∧ m ≤ f q := by
  have hcol : ∀ n, column (fun p => some (f p)) l n = (l.filter fun p => decide (p.name = n)).map f := by
    intro n; unfold column; exact congrFun (List.filterMap_eq_map (f := f)) _
  refine ⟨⟨?_, fun n => ?_⟩, ⟨?_, fun n => ?_⟩, ?_, ?_⟩
  · simpa [Function.comp_def] using groups_nodup l
  · simpa [Function.comp_def] using mem_groups l n
  · simpa [Function.comp_def] using groups_nodup l
  · simpa [Function.comp_def] using mem_groups l n
  · rw [← sum_groups f l (groups l) (groups_nodup l) fun p hp => (mem_groups l _).2 ⟨p, hp, rfl⟩]
    simp only [List.map_map, Function.comp_def, total, hcol]
  · intro n v h
    simp only [List.mem_map, Prod.mk.injEq] at h
    obtain ⟨n, hn, rfl, rfl⟩ := h
    have hn0 := hn
    rw [mem_groups] at hn
    obtain ⟨p, hp, rfl⟩ := hn
    have hne : column (fun p => some (f p)) l p.name ≠ [] := by
      rw [hcol]
      have : p ∈ l.filter fun q => decide (q.name = p.name) := List.mem_filter.2 ⟨hp, by simp⟩
      intro h0
      rw [List.map_eq_nil_iff] at h0
      rw [h0] at this
      simp at this
    refine ⟨_, if_neg hne, ?_, ?_⟩
    · rw [List.mem_map]
      refine ⟨p.name, hn0, ?_⟩
      have hlen : (column (fun p => some (f p)) l p.name).length = (l.map Perf.name).count p.name := by
        rw [hcol, List.length_map, List.count_eq_countP, List.countP_map, List.countP_eq_length_filter]
        congr 1
      have hpos : ((column (fun p => some (f p)) l p.name).length : ℚ) ≠ 0 := by
        have := List.length_pos_iff.2 hne
        positivity
      rw [Prod.mk.injEq]
      refine ⟨rfl, ?_⟩
      rw [← hlen, div_mul_cancel₀ _ hpos]
      rfl
    · obtain ⟨a, ha, b, hb, h1, h2⟩ := mean_between _ hne
      rw [hcol, List.mem_map] at ha hb
      obtain ⟨x, hx, rfl⟩ := ha
      obtain ⟨y, hy, rfl⟩ := hb
      rw [List.mem_filter, decide_eq_true_eq] at hx hy
      exact ⟨x, hx.1, y, hy.1, hx.2, hy.2, h1, h2⟩

/-- C83: the bars of the times. The totals add up to the time of all the lines; the mean of a function multiplied by its number of
calls is its total, and is between two of its times. The same for the CPU times. -/
theorem C83_times (l : List Perf) :
    (OneBarEach (summary l).totalTime l ∧ OneBarEach (summary l).meanTime l ∧
      ((summary l).totalTime.map Prod.snd).sum = (l.map Perf.time).sum ∧
      ∀ n v, (n, v) ∈ (summary l).meanTime → ∃ m, v = some m ∧
        (n, m * ((l.map Perf.name).count n : ℚ)) ∈ (summary l).totalTime ∧
        ∃ p ∈ l, ∃ q ∈ l, p.name = n ∧ q.name = n ∧ p.time ≤ m ∧ m ≤ q.time) ∧
    (OneBarEach (summary l).totalCpuTime l ∧ OneBarEach (summary l).meanCpuTime l ∧
      ((summary l).totalCpuTime.map Prod.snd).sum = (l.map Perf.cpuTime).sum ∧
      ∀ n v, (n, v) ∈ (summary l).meanCpuTime → ∃ m, v = some m ∧
        (n, m * ((l.map Perf.name).count n : ℚ)) ∈ (summary l).totalCpuTime ∧
        ∃ p ∈ l, ∃ q ∈ l, p.name = n ∧ q.name = n ∧ p.cpuTime ≤ m ∧ m ≤ q.cpuTime) :=
  ⟨bars_of Perf.time l, bars_of Perf.cpuTime l⟩

/-- Two lines of one function and one of another. -/
def exPerf : List Perf :=
  [⟨"Matching cost step", 2, 1, some 100, 10, 20, some 50⟩, ⟨"Disparity step", 1, 1, some 60, 10, 20, some 50⟩,
   ⟨"Matching cost step", 4, 3, some 100, 10, 20, some 70⟩]

/-- C83 on these lines: the bars. -/
example : (summary exPerf).calls = [("Disparity step", 1), ("Matching cost step", 2)] ∧
    (summary exPerf).totalTime = [("Disparity step", 1), ("Matching cost step", 6)] ∧
    (summary exPerf).meanTime = [("Disparity step", some 1), ("Matching cost step", some 3)] := by decide +kernel

/-! ## C84 -/

/-- C84 in full: the median shown for a function is between two of the values measured in its calls. -/
def C84Statement : Prop :=
  ∀ (l : List Perf) n q1 q2 q3, (n, q1, q2, q3) ∈ (summary l).maxMem → readings Perf.maxMem l n ≠ [] →
    ∃ a ∈ readings Perf.maxMem l n, ∃ b ∈ readings Perf.maxMem l n, a ≤ q2 ∧ q2 ≤ b

/-- C84 is false of the code: the box is the one of the two numbers "mean" and "sum". With two calls of 100 MB the median shown is 150. -/
theorem C84_false : ¬ C84Statement := by
  intro h
  have hm : ("Matching cost step", (125 : ℚ), (150 : ℚ), (175 : ℚ)) ∈ (summary exPerf).maxMem := by decide +kernel
  have hr : readings Perf.maxMem exPerf "Matching cost step" = [100, 100] := by decide +kernel
  obtain ⟨a, -, b, hb, -, h2⟩ := h exPerf _ _ _ _ hm (by rw [hr]; simp)
  rw [hr] at hb
  simp only [List.mem_cons, List.not_mem_nil, or_false, or_self] at hb
  subst hb
  norm_num at h2

/-- What the box shows, for the memory and for the CPU: with `k` measured values of mean `m ≥ 0`, the median is `m (k + 1) / 2`, the
quartiles `m (k + 3) / 4` and `m (3 k + 1) / 4`. -/
theorem C84_box (f : Perf → Option ℚ) (l : List Perf) (n : String) (hr : readings f l n ≠ []) (h0 : ∀ x ∈ readings f l n, 0 ≤ x) :
    box f l n = (n, (readings f l n).sum / (readings f l n).length * (((readings f l n).length + 3) / 4),
      (readings f l n).sum / (readings f l n).length * (((readings f l n).length + 1) / 2),
      (readings f l n).sum / (readings f l n).length * ((3 * (readings f l n).length + 1) / 4)) := by
  have hlen : (1 : ℚ) ≤ (readings f l n).length := by
    have := List.length_pos_iff.2 hr
    exact_mod_cast this
  have hsum : 0 ≤ (readings f l n).sum := List.sum_nonneg h0
  have hle : (readings f l n).sum / (readings f l n).length ≤ (readings f l n).sum := div_le_self hsum hlen
  have hne : ((readings f l n).length : ℚ) ≠ 0 := by linarith
  have hq : ∀ q, boxQuantile q f l n = (readings f l n).sum / (readings f l n).length +
      q * ((readings f l n).sum - (readings f l n).sum / (readings f l n).length) := by
    intro q
    unfold boxQuantile average total
    rw [column_eq, if_neg hr]
    simp only
    rw [min_eq_left hle, max_eq_right hle]
  unfold box
  rw [hq, hq, hq]
  simp only [Prod.mk.injEq, true_and]
  refine ⟨?_, ?_, ?_⟩ <;> field_simp <;> ring

/-- C84 (partial): for a function with one measured value the box is this value. Missing: several calls (`C84_false`). -/
theorem C84_one_call_partial (l : List Perf) (n : String) (x : ℚ) (h : readings Perf.maxMem l n = [x]) (hx : 0 ≤ x) :
    box Perf.maxMem l n = (n, x, x, x) := by
  rw [C84_box Perf.maxMem l n (by rw [h]; simp) (by rw [h]; simpa using hx), h]
  simp only [List.sum_singleton, List.length_singleton, Nat.cast_one, div_one]
  norm_num

example : readings Perf.maxMem exPerf "Disparity step" = [60] ∧ (summary exPerf).maxMem =
    [("Disparity step", 60, 60, 60), ("Matching cost step", 125, 150, 175)] := by decide +kernel

/-! ## C85 -/

/-- An execution whose summary is wanted. -/
def Summarised (e : Execution) : Prop := e.expert = true ∧ e.filled = true ∧ e.succeeds = true ∧ e.lines ≠ []

/-- C85 in full: in a process, every successful execution in expert mode has the summary of its own lines. -/
def C85Statement : Prop :=
  ∀ (es : List Execution) (i : Nat) (e : Execution), es[i]? = some e → Summarised e → (session es [])[i]? = some (some (summary e.lines))

/-- C85 is false of the code: the lines of an execution which has failed are counted in the summary of the next one. -/
theorem C85_false : ¬ C85Statement := by
  intro h
  have := h [⟨true, true, exPerf, false⟩, ⟨true, true, exPerf, true⟩] 1 _ rfl ⟨rfl, rfl, rfl, by decide⟩
  have h2 : ((session [⟨true, true, exPerf, false⟩, ⟨true, true, exPerf, true⟩] [])[1]?.join.map Figures.calls) =
      some [("Disparity step", 2), ("Matching cost step", 4)] := by decide +kernel
  rw [this] at h2
  have h3 : (summary exPerf).calls = [("Disparity step", 1), ("Matching cost step", 2)] := by decide +kernel
  simp [h3] at h2

/-- The same after an execution with an empty section `expert_mode`, which succeeds: it is profiled and has no summary. -/
theorem C85_empty_section : (session [⟨true, false, exPerf, true⟩, ⟨true, true, exPerf, true⟩] []).map (fun f => f.map Figures.calls) =
    [none, some [("Disparity step", 2), ("Matching cost step", 4)]] := by decide +kernel

/-- C85 (partial): it holds when no earlier execution in expert mode has failed or has an empty section. -/
theorem C85_no_failure_partial (es : List Execution) (i : Nat) (e : Execution) (he : es[i]? = some e) (hs : Summarised e)
    (hp : ∀ j < i, ∀ e', es[j]? = some e' → e'.expert = true → e'.filled = true ∧ e'.succeeds = true) :
    (session es [])[i]? = some (some (summary e.lines)) := by
  induction es generalizing i with
  | nil => simp at he
  | cons x es ih =>
    cases i with
    | zero =>
      simp only [List.getElem?_cons_zero, Option.some.injEq] at he
      subst he
      obtain ⟨h1, h2, h3, h4⟩ := hs
      simp [session, Execution.run, h1, h2, h3, h4]
    | succ i =>
      have hx : (x.run []).2 = [] := by
        unfold Execution.run
        by_cases hx : x.expert = true
        · have h2 := hp 0 (by omega) x rfl hx
          rw [if_pos hx, h2.1, h2.2]
          split_ifs with h3
          · rfl
          · simp only [List.nil_append, Bool.true_and, Bool.and_self, Bool.not_eq_true, Bool.not_eq_false', List.isEmpty_iff] at h3 ⊢
            exact h3
        · rw [if_neg hx]
      simp only [session, List.getElem?_cons_succ, hx] at he ⊢
      exact ih i he fun j hj e' he' => hp (j + 1) (by omega) e' (by simpa using he')

/-- Two executions in expert mode and one without, in the same process. -/
example : (session [⟨true, true, exPerf, true⟩, ⟨false, false, exPerf, false⟩, ⟨true, true, exPerf, true⟩] []).map (fun f => f.map Figures.calls) =
    [some [("Disparity step", 1), ("Matching cost step", 2)], none, some [("Disparity step", 1), ("Matching cost step", 2)]] := by
  decide +kernel

end Verif.Props
