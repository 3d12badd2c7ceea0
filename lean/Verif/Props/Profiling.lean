import Verif.Spec.Profiling
import Mathlib.Tactic.NormNum

/-!
# Property C56: the profiling decorator
-/

namespace Verif.Props

open Verif.Profiling Verif.Spec

variable {ρ ε α : Type}

/-- Messages sent so far by the thread. -/
def sent (t : TPc) (maxMem maxCpu : Nat) : List ℚ :=
  match t with
  | .start => []
  | .mem | .cpu | .poll | .sendMem => [0]
  | .sendCpu => [0, toMB maxMem]
  | .dead => [0, toMB maxMem, (maxCpu : ℚ)]

/-- Values written in the line of the file. -/
def Written (t : TPc) (ack : Bool) (maxMem maxCpu : Nat) (m c : Option ℚ) : Prop :=
  (m = none ∧ c = none) ∨ (ack = true ∧ t = .dead ∧ m = some (toMB maxMem) ∧ c = some (maxCpu : ℚ)) ∨
  (ack = false ∧ (t = .sendCpu ∨ t = .dead) ∧ m = some 0 ∧ c = some (toMB maxMem))

/-- What is true of the wrapper. -/
def InvP (name : String) (func : World ρ → Except ε α × World ρ) (w : World ρ) (s : St ρ ε α) : Prop :=
  match s.p with
  | .ready => s.calls = 0 ∧ s.world = w ∧ s.toC = 0 ∧ s.ack = false ∧ s.toP = sent s.t s.maxMem s.maxCpu
  | .call => s.calls = 0 ∧ s.world = w ∧ s.toC = 0 ∧ sent s.t s.maxMem s.maxCpu = (if s.ack then [0] else []) ++ s.toP
  | .stop r => s.calls = 1 ∧ func w = (.ok r, s.world) ∧ s.toC = 0 ∧ sent s.t s.maxMem s.maxCpu = (if s.ack then [0] else []) ++ s.toP
  | .reply r => s.calls = 1 ∧ func w = (.ok r, s.world) ∧ s.toC = 1 ∧ sent s.t s.maxMem s.maxCpu = (if s.ack then [0] else []) ++ s.toP
  | .recvCpu r m => s.calls = 1 ∧ func w = (.ok r, s.world) ∧ s.toC = 1 ∧
      sent s.t s.maxMem s.maxCpu = (if s.ack then [0] else []) ++ m :: s.toP
  | .write r m c => s.calls = 1 ∧ func w = (.ok r, s.world) ∧ s.toC = 1 ∧ Written s.t s.ack s.maxMem s.maxCpu m c
  | .done r => s.calls = 1 ∧ s.toC = 1 ∧ ∃ w1 m c, func w = (.ok r, w1) ∧ s.world = appendRow w1 (.line name m c) ∧
      Written s.t s.ack s.maxMem s.maxCpu m c
  | .raised e => s.calls = 1 ∧ func w = (.error e, s.world) ∧ s.toC = 0

/-- What is true of the thread. -/
def InvT (s : St ρ ε α) : Prop :=
  match s.t with
  | .start => s.hist = [] ∧ s.maxMem = 0 ∧ s.maxCpu = 0
  | .mem => s.maxMem = largest (s.hist.map Prod.fst) ∧ s.maxCpu = largest (s.hist.map Prod.snd)
  | .cpu => s.maxMem = max (largest (s.hist.map Prod.fst)) s.lastMem ∧ s.maxCpu = largest (s.hist.map Prod.snd)
  | .poll => s.maxMem = largest (s.hist.map Prod.fst) ∧ s.maxCpu = largest (s.hist.map Prod.snd) ∧ s.hist ≠ []
  | _ => s.maxMem = largest (s.hist.map Prod.fst) ∧ s.maxCpu = largest (s.hist.map Prod.snd) ∧ s.hist ≠ [] ∧ 0 < s.toC

theorem largest_append (l : List Nat) (x : Nat) : largest (l ++ [x]) = max (largest l) x := by
  induction l with
  | nil => simp [largest]
  | cons a l ih =>
    simp only [largest, List.cons_append, List.foldr_cons] at ih ⊢
    rw [ih]
    omega

theorem largest_spec {l : List Nat} (h : l ≠ []) : largest l ∈ l ∧ ∀ x ∈ l, x ≤ largest l := by
  induction l with
  | nil => exact absurd rfl h
  | cons a l ih =>
    by_cases hl : l = []
    · subst hl
      simp [largest]
    · obtain ⟨h1, h2⟩ := ih hl
      have e : largest (a :: l) = max a (largest l) := rfl
      rw [e]
      constructor
      · rcases le_total a (largest l) with h | h
        · rw [max_eq_right h]; exact List.mem_cons_of_mem _ h1
        · rw [max_eq_left h]; exact List.mem_cons_self ..
      · intro x hx
        rcases List.mem_cons.1 hx with rfl | hx
        · exact le_max_left _ _
        · exact (h2 x hx).trans (le_max_right _ _)

theorem tstep_frame {s s' : St ρ ε α} (h : TStep s s') :
    s'.p = s.p ∧ s'.world = s.world ∧ s'.calls = s.calls ∧ s'.ack = s.ack ∧ s'.toC = s.toC := by
  cases h <;> simp

theorem tstep_sent {s s' : St ρ ε α} (h : TStep s s') : ∃ n, s'.toP = s.toP ++ n ∧
    sent s'.t s'.maxMem s'.maxCpu = sent s.t s.maxMem s.maxCpu ++ n := by
  cases h with
  | start e => exact ⟨[0], by simp, by simp [sent, e]⟩
  | mem m e => exact ⟨[], by simp, by simp [sent, e]⟩
  | cpu c e => exact ⟨[], by simp, by simp [sent, e]⟩
  | again e _ => exact ⟨[], by simp, by simp [sent, e]⟩
  | stop e _ => exact ⟨[], by simp, by simp [sent, e]⟩
  | sendMem e => exact ⟨[toMB s.maxMem], by simp, by simp [sent, e]⟩
  | sendCpu e => exact ⟨[(s.maxCpu : ℚ)], by simp, by simp [sent, e]⟩

theorem tstep_written {s s' : St ρ ε α} (h : TStep s s') {m c : Option ℚ}
    (hw : Written s.t s.ack s.maxMem s.maxCpu m c) : Written s'.t s'.ack s'.maxMem s'.maxCpu m c := by
  unfold Written at *
  rcases hw with hw | ⟨a, t, hm, hc⟩ | ⟨a, t, hm, hc⟩
  · exact Or.inl hw
  · cases h <;> simp_all
  · cases h <;> simp_all

theorem invP_tstep {name : String} {func : World ρ → Except ε α × World ρ} {w : World ρ} {s s' : St ρ ε α}
    (hp : InvP name func w s) (h : TStep s s') : InvP name func w s' := by
  obtain ⟨f1, f2, f3, f4, f5⟩ := tstep_frame h
  obtain ⟨n, g1, g2⟩ := tstep_sent h
  have hw := @tstep_written _ _ _ _ _ h
  unfold InvP at *
  rw [f1]
  cases hs : s.p with
  | ready =>
    simp only [hs] at hp ⊢
    obtain ⟨a, b, c, d, e⟩ := hp
    exact ⟨f3 ▸ a, f2 ▸ b, f5 ▸ c, f4 ▸ d, by rw [g1, g2, e]⟩
  | call =>
    simp only [hs] at hp ⊢
    obtain ⟨a, b, c, e⟩ := hp
    exact ⟨f3 ▸ a, f2 ▸ b, f5 ▸ c, by rw [g1, g2, e, f4, List.append_assoc]⟩
  | stop r =>
    simp only [hs] at hp ⊢
    obtain ⟨a, b, c, e⟩ := hp
    exact ⟨f3 ▸ a, f2 ▸ b, f5 ▸ c, by rw [g1, g2, e, f4, List.append_assoc]⟩
  | reply r =>
    simp only [hs] at hp ⊢
    obtain ⟨a, b, c, e⟩ := hp
    exact ⟨f3 ▸ a, f2 ▸ b, f5 ▸ c, by rw [g1, g2, e, f4, List.append_assoc]⟩
  | recvCpu r m =>
    simp only [hs] at hp ⊢
    obtain ⟨a, b, c, e⟩ := hp
    exact ⟨f3 ▸ a, f2 ▸ b, f5 ▸ c, by rw [g1, g2, e, f4, List.append_assoc, List.cons_append]⟩
  | write r m c =>
    simp only [hs] at hp ⊢
    obtain ⟨a, b, c, e⟩ := hp
    exact ⟨f3 ▸ a, f2 ▸ b, f5 ▸ c, hw e⟩
  | done r =>
    simp only [hs] at hp ⊢
    obtain ⟨a, c, w1, m, k, e1, e2, e3⟩ := hp
    exact ⟨f3 ▸ a, f5 ▸ c, w1, m, k, e1, f2 ▸ e2, hw e3⟩
  | raised e =>
    simp only [hs] at hp ⊢
    obtain ⟨a, b, c⟩ := hp
    exact ⟨f3 ▸ a, f2 ▸ b, f5 ▸ c⟩

theorem invT_tstep {s s' : St ρ ε α} (ht : InvT s) (h : TStep s s') : InvT s' := by
  cases h with
  | start e => simp only [InvT, e] at ht ⊢; simp [ht, largest]
  | mem m e => simp only [InvT, e] at ht ⊢; simp [ht]
  | cpu c e => simp only [InvT, e] at ht ⊢; simp [ht, largest_append]
  | again e _ => simp only [InvT, e] at ht ⊢; simp [ht]
  | stop e h0 => simp only [InvT, e] at ht ⊢; exact ⟨ht.1, ht.2.1, ht.2.2, h0⟩
  | sendMem e => simp only [InvT, e] at ht ⊢; exact ht
  | sendCpu e => simp only [InvT, e] at ht ⊢; exact ht

theorem invT_pstep {name : String} {func : World ρ → Except ε α × World ρ} {s s' : St ρ ε α} (ht : InvT s)
    (h : PStep name func s s') : InvT s' := by
  have hf : s'.t = s.t ∧ s'.maxMem = s.maxMem ∧ s'.maxCpu = s.maxCpu ∧ s'.hist = s.hist ∧ s'.lastMem = s.lastMem ∧ s.toC ≤ s'.toC := by
    cases h <;> simp
  obtain ⟨a, b, c, d, e, f⟩ := hf
  unfold InvT at *
  rw [a, b, c, d, e]
  cases ht' : s.t <;> simp only [ht'] at ht ⊢ <;> first | exact ht | exact ⟨ht.1, ht.2.1, ht.2.2.1, by omega⟩

theorem written_of_sent {t : TPc} {ack : Bool} {maxMem maxCpu : Nat} {m c : ℚ} {q : List ℚ}
    (h : sent t maxMem maxCpu = (if ack then [0] else []) ++ m :: c :: q) : Written t ack maxMem maxCpu (some m) (some c) := by
  unfold Written
  cases ack <;> cases t <;> simp_all [sent]

theorem invP_pstep {name : String} {func : World ρ → Except ε α × World ρ} {w : World ρ} {s s' : St ρ ε α}
    (hp : InvP name func w s) (h : PStep name func s s') : InvP name func w s' := by
  cases h with
  | @readyRecv m q e h1 =>
    simp only [InvP, e] at hp ⊢
    obtain ⟨a, b, c, d, g⟩ := hp
    refine ⟨a, b, c, ?_⟩
    rw [h1] at g
    have : m = 0 := by cases ht : s.t <;> simp_all [sent]
    subst this
    rw [← g]; rfl
  | readyTimeout e h1 =>
    simp only [InvP, e] at hp ⊢
    obtain ⟨a, b, c, d, g⟩ := hp
    exact ⟨a, b, c, by rw [d, ← g]; rfl⟩
  | callOk e h1 =>
    simp only [InvP, e] at hp ⊢
    obtain ⟨a, b, c, g⟩ := hp
    exact ⟨by omega, by rw [← b]; exact h1, c, g⟩
  | callRaise e h1 =>
    simp only [InvP, e] at hp ⊢
    obtain ⟨a, b, c, g⟩ := hp
    exact ⟨by omega, by rw [← b]; exact h1, c⟩
  | stop e =>
    simp only [InvP, e] at hp ⊢
    obtain ⟨a, b, c, g⟩ := hp
    exact ⟨a, b, by omega, g⟩
  | replyRecv e h1 =>
    simp only [InvP, e] at hp ⊢
    obtain ⟨a, b, c, g⟩ := hp
    exact ⟨a, b, c, by rw [g, h1]⟩
  | replyTimeout e h1 =>
    simp only [InvP, e] at hp ⊢
    obtain ⟨a, b, c, g⟩ := hp
    exact ⟨a, b, c, Or.inl ⟨rfl, rfl⟩⟩
  | recvCpu e h1 =>
    simp only [InvP, e] at hp ⊢
    obtain ⟨a, b, c, g⟩ := hp
    rw [h1] at g
    exact ⟨a, b, c, written_of_sent g⟩
  | write e =>
    simp only [InvP, e] at hp ⊢
    obtain ⟨a, b, c, g⟩ := hp
    exact ⟨a, c, _, _, _, b, rfl, g⟩

theorem reach_inv {name : String} {func : World ρ → Except ε α × World ρ} {w : World ρ} {s : St ρ ε α} (h : Reach name func w s) :
    InvP name func w s ∧ InvT s := by
  induction h with
  | init => exact ⟨by simp [InvP, Profiling.init, sent], by simp [InvT, Profiling.init]⟩
  | step _ hs ih =>
    rcases hs with hs | hs
    · exact ⟨invP_pstep ih.1 hs, invT_pstep ih.2 hs⟩
    · exact ⟨invP_tstep ih.1 hs, invT_tstep ih.2 hs⟩

/-! ## The result -/

/-- The decorated function, whatever the schedule of the two threads and the readings: if it returns, the wrapped function was called
once in the initial world and returned the same value, and the only other effect is one line at the end of the file, with the name of the
function; if it raises, the wrapped function was called once and raised the same exception, and there is no other effect. Without the
expert mode it is the wrapped function. -/
theorem C56_result (enable : Bool) (name : String) (func : World ρ → Except ε α × World ρ) (w : World ρ) (o : Except ε α × World ρ)
    (h : Outcome enable name func w o) :
    o.1 = (func w).1 ∧ o.2.rest = (func w).2.rest ∧
      (match enable, (func w).1 with
       | true, .ok _ => ∃ m c, OneMoreLine (func w).2.csv o.2.csv (.line name m c)
       | _, _ => o.2.csv = (func w).2.csv) := by
  cases enable with
  | false =>
    simp only [Outcome] at h
    simp at h
    subst h
    exact ⟨rfl, rfl, rfl⟩
  | true =>
    simp only [Outcome, if_true] at h
    obtain ⟨s, hr, ho, h⟩ := h
    have hi := (reach_inv hr).1
    rcases h with ⟨r, hp, h⟩ | ⟨e, hp, h⟩
    · simp only [InvP, hp] at hi
      obtain ⟨_, _, w1, m, c, e1, e2, _⟩ := hi
      rw [e1, ho, h, e2]
      refine ⟨rfl, ?_, m, c, ?_⟩
      · unfold appendRow; split <;> rfl
      · unfold OneMoreLine appendRow
        split <;> rename_i hc <;> simp [hc]
    · simp only [InvP, hp] at hi
      obtain ⟨_, e1, _⟩ := hi
      rw [e1, ho, h]
      exact ⟨rfl, rfl, rfl⟩

/-- The wrapped function is called at most once, and exactly once when the call is over. -/
theorem C56_once (name : String) (func : World ρ → Except ε α × World ρ) (w : World ρ) (s : St ρ ε α) (h : Reach name func w s) :
    s.calls ≤ 1 ∧ (∀ r, s.p = .done r → s.calls = 1) ∧ (∀ e, s.p = .raised e → s.calls = 1) := by
  have hi := (reach_inv h).1
  unfold InvP at hi
  cases hs : s.p <;> simp only [hs] at hi <;> refine ⟨by omega, ?_, ?_⟩ <;> intro _ hh <;> first | exact hi.1 | cases hh

/-! ## The values written -/

theorem appendRow_line (w : World ρ) (row : Row) : OneMoreLine w.csv (appendRow w row).csv row := by
  unfold OneMoreLine appendRow
  split <;> rename_i hc <;> simp [hc]

theorem appendRow_rest (w : World ρ) (row : Row) : (appendRow w row).rest = w.rest := by
  unfold appendRow
  split <;> rfl

/-- When the ready message has been received in time, a line with values holds the largest memory and the largest CPU of all the readings
of the thread, which has made at least one. -/
theorem C56_maxima (name : String) (func : World ρ → Except ε α × World ρ) (w : World ρ) (s : St ρ ε α) (h : Reach name func w s)
    (hack : s.ack = true) (r : α) (hd : s.p = .done r) :
    ∃ w1 m c, func w = (.ok r, w1) ∧ OneMoreLine w1.csv s.world.csv (.line name m c) ∧ s.world.rest = w1.rest ∧
      ((m = none ∧ c = none) ∨
       (∃ a ∈ s.hist.map Prod.fst, ∃ b ∈ s.hist.map Prod.snd, m = some ((a : ℚ) / 1000000) ∧ c = some (b : ℚ) ∧
         (∀ x ∈ s.hist.map Prod.fst, x ≤ a) ∧ ∀ x ∈ s.hist.map Prod.snd, x ≤ b)) := by
  obtain ⟨hi, ht⟩ := reach_inv h
  simp only [InvP, hd] at hi
  obtain ⟨_, _, w1, m, c, e1, e2, e3⟩ := hi
  refine ⟨w1, m, c, e1, by rw [e2]; exact appendRow_line _ _, by rw [e2]; exact appendRow_rest _ _, ?_⟩
  rcases e3 with e3 | ⟨_, t, rfl, rfl⟩ | ⟨a, _⟩
  · exact Or.inl e3
  · simp only [InvT, t] at ht
    obtain ⟨a, b, c, _⟩ := ht
    have n1 : s.hist.map Prod.fst ≠ [] := by simpa using c
    have n2 : s.hist.map Prod.snd ≠ [] := by simpa using c
    refine Or.inr ⟨_, (largest_spec n1).1, _, (largest_spec n2).1, ?_, ?_, (largest_spec n1).2, (largest_spec n2).2⟩
    · rw [a]; rfl
    · rw [b]
  · rw [hack] at a; cases a

/-- When the ready message has not been received in time, a line with values is wrong: the ready message is taken for the memory and the
memory for the CPU. -/
theorem C56_late_values (name : String) (func : World ρ → Except ε α × World ρ) (w : World ρ) (s : St ρ ε α) (h : Reach name func w s)
    (hack : s.ack = false) (r : α) (hd : s.p = .done r) :
    ∃ w1 m c, func w = (.ok r, w1) ∧ OneMoreLine w1.csv s.world.csv (.line name m c) ∧ s.world.rest = w1.rest ∧
      ((m = none ∧ c = none) ∨ (m = some 0 ∧ c = some ((largest (s.hist.map Prod.fst) : ℚ) / 1000000))) := by
  obtain ⟨hi, ht⟩ := reach_inv h
  simp only [InvP, hd] at hi
  obtain ⟨_, _, w1, m, c, e1, e2, e3⟩ := hi
  refine ⟨w1, m, c, e1, by rw [e2]; exact appendRow_line _ _, by rw [e2]; exact appendRow_rest _ _, ?_⟩
  rcases e3 with e3 | ⟨a, _⟩ | ⟨_, t, rfl, rfl⟩
  · exact Or.inl e3
  · rw [hack] at a; cases a
  · rcases t with t | t <;> simp only [InvT, t] at ht <;> exact Or.inr ⟨rfl, by rw [ht.1]; rfl⟩

theorem _root_.Verif.Profiling.Reach.p {name : String} {func : World ρ → Except ε α × World ρ} {w : World ρ} {s s' : St ρ ε α} (h : Reach name func w s)
    (hs : PStep name func s s') : Reach name func w s' := h.step (Or.inl hs)

theorem _root_.Verif.Profiling.Reach.th {name : String} {func : World ρ → Except ε α × World ρ} {w : World ρ} {s s' : St ρ ε α} (h : Reach name func w s)
    (hs : TStep s s') : Reach name func w s' := h.step (Or.inr hs)

/-- A function without effect. -/
def quiet : World Unit → Except Empty Nat × World Unit := fun w => (.ok 7, w)

/-- The full claim on the values: a line with values holds the maxima. -/
def C56ValuesStatement : Prop :=
  ∀ (name : String) (s : St Unit Empty Nat) (m c : ℚ), Reach name quiet ⟨none, ()⟩ s → s.p = .done 7 →
    s.world.csv = some [.header, .line name (some m) (some c)] →
    m = (largest (s.hist.map Prod.fst) : ℚ) / 1000000 ∧ c = (largest (s.hist.map Prod.snd) : ℚ)

/-- It is false: a run where the thread starts after the time-out of the wrapper; memory 5 MB and CPU 90 % are reported as memory 0 and
CPU 5. -/
theorem C56_values_false : ¬ C56ValuesStatement := by
  intro h
  have r0 : Reach "f" quiet ⟨none, ()⟩ _ := Reach.init
  have r1 := r0.p (.readyTimeout rfl rfl)
  have r2 := r1.p (.callOk rfl rfl)
  have r3 := r2.p (.stop rfl)
  have r4 := r3.th (.start rfl)
  have r5 := r4.th (.mem 5000000 rfl)
  have r6 := r5.th (.cpu 90 rfl)
  have r7 := r6.th (.stop rfl Nat.one_pos)
  have r8 := r7.th (.sendMem rfl)
  have r9 := r8.p (.replyRecv rfl rfl)
  have r10 := r9.p (.recvCpu rfl rfl)
  have r11 := r10.p (.write rfl)
  have := (h _ _ _ _ r11 rfl rfl).1
  revert this
  norm_num [toMB, largest, Profiling.init]

/-- A run in time: the line holds 5 MB and 90 %. -/
example : ∃ s : St Unit Empty Nat, Reach "f" quiet ⟨none, ()⟩ s ∧ s.ack = true ∧ s.p = .done 7 ∧
    s.world.csv = some [.header, .line "f" (some 5) (some 90)] := by
  have r0 : Reach "f" quiet ⟨none, ()⟩ _ := Reach.init
  have r1 := r0.th (.start rfl)
  have r2 := r1.p (.readyRecv rfl rfl)
  have r3 := r2.th (.mem 3000000 rfl)
  have r4 := r3.th (.cpu 90 rfl)
  have r5 := r4.th (.again rfl rfl)
  have r6 := r5.p (.callOk rfl rfl)
  have r7 := r6.p (.stop rfl)
  have r8 := r7.th (.mem 5000000 rfl)
  have r9 := r8.th (.cpu 40 rfl)
  have r10 := r9.th (.stop rfl Nat.one_pos)
  have r11 := r10.th (.sendMem rfl)
  have r12 := r11.th (.sendCpu rfl)
  have r13 := r12.p (.replyRecv rfl rfl)
  have r14 := r13.p (.recvCpu rfl rfl)
  have r15 := r14.p (.write rfl)
  exact ⟨_, r15, rfl, rfl, by norm_num [appendRow, Profiling.init, toMB]⟩

/-! ## The end of the call -/

/-- Only the thread moves, up to its end, once the stop message has been sent. -/
theorem thread_ends {name : String} {func : World ρ → Except ε α × World ρ} {w : World ρ} {s : St ρ ε α} (h : Reach name func w s)
    (hc : 0 < s.toC) : ∃ s', Reach name func w s' ∧ s'.p = s.p ∧ s'.t = .dead ∧ s'.ack = s.ack := by
  have a6 : ∀ s : St ρ ε α, Reach name func w s → 0 < s.toC → s.t = .dead →
      ∃ s', Reach name func w s' ∧ s'.p = s.p ∧ s'.t = .dead ∧ s'.ack = s.ack := fun s h _ e => ⟨s, h, rfl, e, rfl⟩
  have a5 : ∀ s : St ρ ε α, Reach name func w s → 0 < s.toC → s.t = .sendCpu →
      ∃ s', Reach name func w s' ∧ s'.p = s.p ∧ s'.t = .dead ∧ s'.ack = s.ack := fun s h hc e => by have x := a6 _ (h.th (.sendCpu e)) hc rfl; exact x
  have a4 : ∀ s : St ρ ε α, Reach name func w s → 0 < s.toC → s.t = .sendMem →
      ∃ s', Reach name func w s' ∧ s'.p = s.p ∧ s'.t = .dead ∧ s'.ack = s.ack := fun s h hc e => by have x := a5 _ (h.th (.sendMem e)) hc rfl; exact x
  have a3 : ∀ s : St ρ ε α, Reach name func w s → 0 < s.toC → s.t = .poll →
      ∃ s', Reach name func w s' ∧ s'.p = s.p ∧ s'.t = .dead ∧ s'.ack = s.ack := fun s h hc e => by have x := a4 _ (h.th (.stop e hc)) hc rfl; exact x
  have a2 : ∀ s : St ρ ε α, Reach name func w s → 0 < s.toC → s.t = .cpu →
      ∃ s', Reach name func w s' ∧ s'.p = s.p ∧ s'.t = .dead ∧ s'.ack = s.ack := fun s h hc e => by have x := a3 _ (h.th (.cpu 0 e)) hc rfl; exact x
  have a1 : ∀ s : St ρ ε α, Reach name func w s → 0 < s.toC → s.t = .mem →
      ∃ s', Reach name func w s' ∧ s'.p = s.p ∧ s'.t = .dead ∧ s'.ack = s.ack := fun s h hc e => by have x := a2 _ (h.th (.mem 0 e)) hc rfl; exact x
  have a0 : ∀ s : St ρ ε α, Reach name func w s → 0 < s.toC → s.t = .start →
      ∃ s', Reach name func w s' ∧ s'.p = s.p ∧ s'.t = .dead ∧ s'.ack = s.ack := fun s h hc e => by have x := a1 _ (h.th (.start e)) hc rfl; exact x
  cases e : s.t with
  | start => exact a0 s h hc e
  | mem => exact a1 s h hc e
  | cpu => exact a2 s h hc e
  | poll => exact a3 s h hc e
  | sendMem => exact a4 s h hc e
  | sendCpu => exact a5 s h hc e
  | dead => exact a6 s h hc e

/-- The call is over. -/
def Over (s : St ρ ε α) : Prop := (∃ r, s.p = .done r) ∨ ∃ e, s.p = .raised e

/-- No deadlock: from every state reached, the call can end; in particular the second, blocking, reception always gets its message. -/
theorem C56_no_deadlock (name : String) (func : World ρ → Except ε α × World ρ) (w : World ρ) (s : St ρ ε α)
    (h : Reach name func w s) : ∃ s', Reach name func w s' ∧ Over s' := by
  have b7 : ∀ (s : St ρ ε α) r m c, Reach name func w s → s.p = .write r m c → ∃ s', Reach name func w s' ∧ Over s' :=
    fun s r m c h e => ⟨_, h.p (.write e), Or.inl ⟨r, rfl⟩⟩
  have b6 : ∀ (s : St ρ ε α) r m, Reach name func w s → s.p = .recvCpu r m → ∃ s', Reach name func w s' ∧ Over s' := by
    intro s r m h e
    have hi := (reach_inv h).1
    simp only [InvP, e] at hi
    obtain ⟨s', h', e', t', _⟩ := thread_ends h (by omega)
    have e' := e'.trans e
    have hi' := (reach_inv h').1
    simp only [InvP, e', t', sent] at hi'
    cases hq : s'.toP with
    | nil =>
      have hl := congrArg List.length hi'.2.2.2
      rw [hq] at hl
      cases hb : s'.ack <;> simp [hb] at hl
    | cons c q => exact b7 _ _ _ _ (h'.p (.recvCpu e' hq)) rfl
  have b5 : ∀ (s : St ρ ε α) r, Reach name func w s → s.p = .reply r → ∃ s', Reach name func w s' ∧ Over s' := by
    intro s r h e
    cases hq : s.toP with
    | nil => exact b7 _ _ _ _ (h.p (.replyTimeout e hq)) rfl
    | cons c q => exact b6 _ _ _ (h.p (.replyRecv e hq)) rfl
  have b4 : ∀ (s : St ρ ε α) r, Reach name func w s → s.p = .stop r → ∃ s', Reach name func w s' ∧ Over s' :=
    fun s r h e => b5 _ _ (h.p (.stop e)) rfl
  have b3 : ∀ (s : St ρ ε α), Reach name func w s → s.p = .call → ∃ s', Reach name func w s' ∧ Over s' := by
    intro s h e
    rcases hf : func s.world with ⟨r | r, w'⟩
    · exact ⟨_, h.p (.callRaise e hf), Or.inr ⟨_, rfl⟩⟩
    · exact b4 _ _ (h.p (.callOk e hf)) rfl
  cases e : s.p with
  | ready =>
    cases hq : s.toP with
    | nil => exact b3 _ (h.p (.readyTimeout e hq)) rfl
    | cons c q => exact b3 _ (h.p (.readyRecv e hq)) rfl
  | call => exact b3 s h e
  | stop r => exact b4 s r h e
  | reply r => exact b5 s r h e
  | recvCpu r m => exact b6 s r m h e
  | write r m c => exact b7 s r m c h e
  | done r => exact ⟨s, h, Or.inl ⟨r, e⟩⟩
  | raised r => exact ⟨s, h, Or.inr ⟨r, e⟩⟩

/-- After an exception of the function, no stop message is ever sent: the thread is never past its `poll`. -/
theorem C56_exception_leaves_thread (name : String) (func : World ρ → Except ε α × World ρ) (w : World ρ) (s : St ρ ε α)
    (h : Reach name func w s) (e : ε) (he : s.p = .raised e) : s.toC = 0 ∧ s.t ≠ .sendMem ∧ s.t ≠ .sendCpu ∧ s.t ≠ .dead := by
  obtain ⟨hi, ht⟩ := reach_inv h
  simp only [InvP, he] at hi
  refine ⟨hi.2.2, ?_, ?_, ?_⟩ <;> intro hh <;> simp only [InvT, hh] at ht <;> omega

/-! ## The lines of the file -/

theorem namesOf_append (csv : Option (List Row)) (name : String) (m c : Option ℚ) :
    namesOf (appendRow ⟨csv, ()⟩ (.line name m c)).csv = namesOf csv ++ [name] := by
  cases csv <;> simp [appendRow, namesOf]

theorem goodFile_append {csv : Option (List Row)} (h : GoodFile csv) (name : String) (m c : Option ℚ) :
    GoodFile (appendRow ⟨csv, ()⟩ (.line name m c)).csv := by
  cases csv with
  | none => exact ⟨[.line name m c], rfl, by simp⟩
  | some l =>
    obtain ⟨q, rfl, hq⟩ := h
    exact ⟨q ++ [.line name m c], rfl, by simp [hq]⟩

mutual
theorem exec_spec : ∀ (k : Call) (csv : Option (List Row)), GoodFile csv →
    (k.exec csv).1 = (returns k).1 ∧ namesOf (k.exec csv).2 = namesOf csv ++ (returns k).2 ∧ GoodFile (k.exec csv).2
  | .node name m c raises inner, csv, h => by
    obtain ⟨h1, h2, h3⟩ := execList_spec inner csv h
    rw [Call.exec, returns]
    rcases hx : execList inner csv with ⟨ok, csv'⟩
    rcases hy : returnsList inner with ⟨ok', l⟩
    rw [hx, hy] at h1 h2
    rw [hx] at h3
    simp only at h1 h2 h3
    subst h1
    cases ok with
    | false => exact ⟨by simp, by simpa using h2, h3⟩
    | true =>
      cases raises with
      | true => exact ⟨by simp, by simpa using h2, h3⟩
      | false =>
        refine ⟨by simp, ?_, goodFile_append h3 ..⟩
        simp only [Bool.false_eq_true, if_false, Bool.not_false, Bool.and_self, if_true]
        rw [namesOf_append, h2, List.append_assoc]
theorem execList_spec : ∀ (ks : List Call) (csv : Option (List Row)), GoodFile csv →
    (execList ks csv).1 = (returnsList ks).1 ∧ namesOf (execList ks csv).2 = namesOf csv ++ (returnsList ks).2 ∧
      GoodFile (execList ks csv).2
  | [], csv, h => by simpa [execList, returnsList] using h
  | k :: ks, csv, h => by
    obtain ⟨h1, h2, h3⟩ := exec_spec k csv h
    rw [execList, returnsList]
    rcases hx : k.exec csv with ⟨ok, csv'⟩
    rcases hy : returns k with ⟨ok', l⟩
    rw [hx, hy] at h1 h2
    rw [hx] at h3
    simp only at h1 h2 h3
    subst h1
    cases ok with
    | false => exact ⟨by simp, by simpa using h2, h3⟩
    | true =>
      obtain ⟨g1, g2, g3⟩ := execList_spec ks csv' h3
      refine ⟨by simpa using g1, ?_, g3⟩
      simp only [if_true]
      rw [g2, h2, List.append_assoc]
end

/-- The file counts the calls: after a call of a profiled function with its inner profiled calls, at any depth, the lines added are the
names of the calls which have returned, in the order of their returns, and the header is written once. -/
theorem C56_lines (k : Call) (csv : Option (List Row)) (h : GoodFile csv) :
    namesOf (k.exec csv).2 = namesOf csv ++ (returns k).2 ∧ GoodFile (k.exec csv).2 :=
  (exec_spec k csv h).2

/-- The number of lines of a function is the number of its calls which have returned. -/
theorem C56_count (k : Call) (name : String) :
    (namesOf (k.exec none).2).count name = (returns k).2.count name := by
  rw [(exec_spec k none trivial).2.1]
  simp [namesOf]

example : namesOf ((Call.node "run" none none false [.node "a" none none false [], .node "b" none none false [.node "a" none none false []]]).exec none).2
    = ["a", "a", "b", "run"] := by
  simp [Call.exec, execList, appendRow, namesOf]

end Verif.Props
