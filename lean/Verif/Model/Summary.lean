import Verif.Model.Profiling
import Mathlib.Data.List.Dedup
import Mathlib.Data.List.Sort
import Mathlib.Data.String.Basic
import Mathlib.Data.Rat.Defs
import Mathlib.Algebra.BigOperators.Group.List.Basic

/-!
# Model of `generate_summary`, `pandora2d/profiling.py` 290-386

The figures are the lists of the values they show. `pandas` is modelled by its documented behaviour: an empty cell is a missing value,
`mean` and `sum` skip the missing values (the mean of no value is missing, the sum is zero), `groupby` sorts the names, `describe` skips
the missing values and interpolates linearly.
-/

namespace Verif.Profiling

/-- A line of the file, with all its readings, profiling.py 203; `none` for an empty cell. -/
structure Perf where
  name : String
  time : ℚ
  cpuTime : ℚ
  maxMem : Option ℚ
  startRam : ℚ
  endRam : ℚ
  maxCpu : Option ℚ
deriving DecidableEq

/-- `grouped = resumed_performance_df.groupby("Function_name")`, 311: the names of the groups. -/
def groups (l : List Perf) : List String := (l.map Perf.name).dedup.insertionSort fun a b => a ≤ b

/-- The values of a column in a group. -/
def column (f : Perf → Option ℚ) (l : List Perf) (name : String) : List ℚ :=
  (l.filter fun p => decide (p.name = name)).filterMap f

/-- `agg("sum")`. -/
def total (f : Perf → Option ℚ) (l : List Perf) (name : String) : ℚ := (column f l name).sum

/-- `agg("mean")`. -/
def average (f : Perf → Option ℚ) (l : List Perf) (name : String) : Option ℚ :=
  if column f l name = [] then none else some ((column f l name).sum / (column f l name).length)

/-- A quantile of the two values `mean` and `sum` of a group: `dataframe.T.describe()`, `generate_figure` 269-273. -/
def boxQuantile (q : ℚ) (f : Perf → Option ℚ) (l : List Perf) (name : String) : ℚ :=
  match average f l name with
  | none => total f l name
  | some m => min m (total f l name) + q * (max m (total f l name) - min m (total f l name))

/-- The seven figures, 325-381. A bar is a name with a value, a box is a name with its three quartiles. -/
structure Figures where
  meanTime : List (String × Option ℚ)
  totalTime : List (String × ℚ)
  meanCpuTime : List (String × Option ℚ)
  totalCpuTime : List (String × ℚ)
  maxCpu : List (String × ℚ × ℚ × ℚ)
  maxMem : List (String × ℚ × ℚ × ℚ)
  calls : List (String × Nat)

/-- The quartiles shown for a group. -/
def box (f : Perf → Option ℚ) (l : List Perf) (name : String) : String × ℚ × ℚ × ℚ :=
  (name, boxQuantile (1 / 4) f l name, boxQuantile (1 / 2) f l name, boxQuantile (3 / 4) f l name)

/-- `generate_summary`, 310-381. -/
def summary (l : List Perf) : Figures where
  meanTime := (groups l).map fun n => (n, average (fun p => some p.time) l n)
  totalTime := (groups l).map fun n => (n, total (fun p => some p.time) l n)
  meanCpuTime := (groups l).map fun n => (n, average (fun p => some p.cpuTime) l n)
  totalCpuTime := (groups l).map fun n => (n, total (fun p => some p.cpuTime) l n)
  maxCpu := (groups l).map (box Perf.maxCpu l)
  maxMem := (groups l).map (box Perf.maxMem l)
  calls := (groups l).map fun n => (n, (l.filter fun p => decide (p.name = n)).length)

/-! ## Several executions in a process -/

/-- An execution of `main` in the process: whether the configuration has an `expert_mode` (which enables the profiling, `__init__.py`
102), whether this section is not empty (an empty one is not kept by the check, check_configuration.py 332-336, and no summary is then
written, `__init__.py` 139), the lines which its profiled steps write when the profiling is enabled, and whether it ends without error
before the summary. -/
structure Execution where
  expert : Bool
  filled : Bool
  lines : List Perf
  succeeds : Bool

/-- `main`, `__init__.py` 101-140, seen from the file of the profiling. The name of the file is the time of the import of the module
(profiling.py 59), the same for all the executions of the process. The summary copies and removes the file (`generate_summary` 302-307;
`shutil.copy` raises when there is no file). The result is the summary, if any, and the file which remains. -/
def Execution.run (e : Execution) (file : List Perf) : Option Figures × List Perf :=
  if e.expert then
    if e.filled && e.succeeds && !(file ++ e.lines).isEmpty then (some (summary (file ++ e.lines)), []) else (none, file ++ e.lines)
  else (none, file)

/-- The executions of a process, in order: their summaries. -/
def session : List Execution → List Perf → List (Option Figures)
  | [], _ => []
  | e :: es, file => (e.run file).1 :: session es (e.run file).2

end Verif.Profiling
