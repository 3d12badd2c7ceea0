import Mathlib.Algebra.Order.Field.Rat
import Mathlib.Data.List.Count
import Mathlib.Data.List.Basic

/-!
# Model of `pandora2d/profiling.py`: the decorator `mem_time_profile` and the thread `MemProf`

The wrapper and the monitoring thread are two processes which exchange messages through a duplex pipe (two queues). A step of the
system is a step of one of the two; the order of the steps, the memory and CPU readings, and the moments of the time-outs are chosen by
the scheduler. Times and memory at start and end are not modelled (they are readings written in the row).
-/

namespace Verif.Profiling

/-- A line of the CSV file: header or performance data (name, maximal memory, maximal CPU; `none` for Python's `None`),
profiling.py 199-226. -/
inductive Row where
  | header
  | line (name : String) (maxMem maxCpu : Option ℚ)
deriving DecidableEq

/-- What the profiled function can read and modify: the CSV file (profiled functions call profiled functions), absent at first, and
the rest. -/
structure World (ρ : Type) where
  csv : Option (List Row)
  rest : ρ

/-- The CSV file after the writing of a line: opened in append mode, with a header if it did not exist, profiling.py 205-226. -/
def appendRow {ρ : Type} (w : World ρ) (row : Row) : World ρ :=
  match w.csv with
  | none => { w with csv := some [.header, row] }
  | some l => { w with csv := some (l ++ [row]) }

/-- Position of the wrapper, profiling.py 161-228. -/
inductive PPc (ε α : Type) where
  | ready                                           -- 177: `if parent_pipe.poll(THREAD_TIMEOUT)`
  | call                                            -- 185: `result = func(*args, **kwargs)`
  | stop (r : α)                                    -- 191: `parent_pipe.send(0)`
  | reply (r : α)                                   -- 193: `if parent_pipe.poll(THREAD_TIMEOUT)`
  | recvCpu (r : α) (mem : ℚ)                       -- 195: second `recv`, blocking
  | write (r : α) (mem cpu : Option ℚ)              -- 205-226
  | done (r : α)                                    -- 228: `return result`
  | raised (e : ε)                                  -- the function has raised

/-- Position of the thread, `MemProf.run`, profiling.py 116-144. -/
inductive TPc where
  | start      -- 126: `self.pipe.send(0)`
  | mem        -- 130: memory reading
  | cpu        -- 134: CPU reading
  | poll       -- 137: `stop = self.pipe.poll(self.interval)`
  | sendMem    -- 140
  | sendCpu    -- 141
  | dead

/-- State of the two processes. `toP` is the queue towards the wrapper, `toC` the number of messages towards the thread; `calls`,
`hist` and `ack` (the ready message has been received at 178) are only observed. -/
structure St (ρ ε α : Type) where
  p : PPc ε α
  t : TPc
  toP : List ℚ
  toC : Nat
  maxMem : Nat
  maxCpu : Nat
  world : World ρ
  calls : Nat
  hist : List (Nat × Nat)
  lastMem : Nat
  ack : Bool

/-- Bytes to MB, profiling.py 140. -/
def toMB (n : Nat) : ℚ := (n : ℚ) / 1000000

/-- State after the creation of the pipe and the start of the thread, profiling.py 174-176. -/
def init {ρ ε α : Type} (w : World ρ) : St ρ ε α := ⟨.ready, .start, [], 0, 0, 0, w, 0, [], 0, false⟩

variable {ρ ε α : Type}

/-- A step of the wrapper around `func`. A `poll` which finds a message returns at once; it returns `False` only if there is none. -/
inductive PStep (name : String) (func : World ρ → Except ε α × World ρ) : St ρ ε α → St ρ ε α → Prop
  | readyRecv {s m q} : s.p = .ready → s.toP = m :: q → PStep name func s { s with p := .call, toP := q, ack := true }
  | readyTimeout {s} : s.p = .ready → s.toP = [] → PStep name func s { s with p := .call }
  | callOk {s r w} : s.p = .call → func s.world = (.ok r, w) → PStep name func s { s with p := .stop r, world := w, calls := s.calls + 1 }
  | callRaise {s e w} : s.p = .call → func s.world = (.error e, w) →
      PStep name func s { s with p := .raised e, world := w, calls := s.calls + 1 }
  | stop {s r} : s.p = .stop r → PStep name func s { s with p := .reply r, toC := s.toC + 1 }
  | replyRecv {s r m q} : s.p = .reply r → s.toP = m :: q → PStep name func s { s with p := .recvCpu r m, toP := q }
  | replyTimeout {s r} : s.p = .reply r → s.toP = [] → PStep name func s { s with p := .write r none none }
  | recvCpu {s r m c q} : s.p = .recvCpu r m → s.toP = c :: q → PStep name func s { s with p := .write r (some m) (some c), toP := q }
  | write {s r m c} : s.p = .write r m c → PStep name func s { s with p := .done r, world := appendRow s.world (.line name m c) }

/-- A step of the thread. -/
inductive TStep : St ρ ε α → St ρ ε α → Prop
  | start {s} : s.t = .start → TStep s { s with t := .mem, toP := s.toP ++ [0] }
  | mem {s} (m : Nat) : s.t = .mem → TStep s { s with t := .cpu, maxMem := max s.maxMem m, lastMem := m }
  | cpu {s} (c : Nat) : s.t = .cpu → TStep s { s with t := .poll, maxCpu := max s.maxCpu c, hist := s.hist ++ [(s.lastMem, c)] }
  | again {s} : s.t = .poll → s.toC = 0 → TStep s { s with t := .mem }
  | stop {s} : s.t = .poll → 0 < s.toC → TStep s { s with t := .sendMem }
  | sendMem {s} : s.t = .sendMem → TStep s { s with t := .sendCpu, toP := s.toP ++ [toMB s.maxMem] }
  | sendCpu {s} : s.t = .sendCpu → TStep s { s with t := .dead, toP := s.toP ++ [(s.maxCpu : ℚ)] }

/-- A step of the system. -/
def Step (name : String) (func : World ρ → Except ε α × World ρ) (s s' : St ρ ε α) : Prop := PStep name func s s' ∨ TStep s s'

/-- The states reached by a profiled call from the world `w`. -/
inductive Reach (name : String) (func : World ρ → Except ε α × World ρ) (w : World ρ) : St ρ ε α → Prop
  | init : Reach name func w (init w)
  | step {s s'} : Reach name func w s → Step name func s s' → Reach name func w s'

/-- `wrapper_profile`, profiling.py 161-228, seen from the caller: the possible outcomes `(result, world)`. Without the expert mode
the function is called directly (170-171). -/
def Outcome (enable : Bool) (name : String) (func : World ρ → Except ε α × World ρ) (w : World ρ) (o : Except ε α × World ρ) : Prop :=
  if enable then ∃ s, Reach name func w s ∧ o.2 = s.world ∧ ((∃ r, s.p = .done r ∧ o.1 = .ok r) ∨ (∃ e, s.p = .raised e ∧ o.1 = .error e))
  else o = func w

/-! ## Nested profiled calls -/

/-- A call of a profiled function: its name, the profiled calls that it makes, the values found by its monitoring thread, and whether
it raises an exception of its own after these calls. An exception of an inner call is propagated. -/
inductive Call where
  | node (name : String) (maxMem maxCpu : Option ℚ) (raises : Bool) (inner : List Call)

mutual
/-- Effect of a call on the CSV file (expert mode), and whether it has returned. -/
def Call.exec : Call → Option (List Row) → Bool × Option (List Row)
  | .node name m c raises inner, csv =>
    match execList inner csv with
    | (false, csv) => (false, csv)
    | (true, csv) => if raises then (false, csv) else (true, (appendRow ⟨csv, ()⟩ (.line name m c)).csv)
/-- Calls in sequence, until one raises. -/
def execList : List Call → Option (List Row) → Bool × Option (List Row)
  | [], csv => (true, csv)
  | k :: ks, csv =>
    match k.exec csv with
    | (false, csv) => (false, csv)
    | (true, csv) => execList ks csv
end

end Verif.Profiling
