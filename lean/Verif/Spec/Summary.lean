import Verif.Model.Summary

/-! # Specification of the summary of the profiling -/

namespace Verif.Spec

open Verif.Profiling

/-- The values read by the calls of a function. -/
def readings (f : Perf → Option ℚ) (l : List Perf) (name : String) : List ℚ :=
  l.filterMap fun p => if p.name = name then f p else none

/-- A bar chart of values by function: one bar for each function of the file, and only one. -/
def OneBarEach {α : Type} (bars : List (String × α)) (l : List Perf) : Prop :=
  (bars.map Prod.fst).Nodup ∧ ∀ name, name ∈ bars.map Prod.fst ↔ ∃ p ∈ l, p.name = name

end Verif.Spec
