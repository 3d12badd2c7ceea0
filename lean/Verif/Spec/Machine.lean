import Verif.Model.Machine

/-!
# Specification of the pipelines
-/

namespace Verif.Spec

open Verif Verif.Machine

/-- A well-formed pipeline: a prefix of `[estimation] matching_cost disparity refinement*`. -/
def WellFormed (l : List String) : Prop :=
  ∃ (e : Bool) (n : Nat),
    l <+: (if e then ["estimation"] else []) ++ ["matching_cost", "disparity"] ++ List.replicate n "refinement"

/-- The characters before the first dot. -/
def beforeDot : List Char → List Char
  | [] => []
  | c :: l => if c = '.' then [] else c :: beforeDot l

/-- The step of a name with an optional suffix after a dot. -/
def stepOf (s : String) : String := String.ofList (beforeDot s.toList)

variable {D P : Type}

/-- Sequential execution of callbacks, each with its step, stopping at the first exception. -/
def runCallbacks (exec : Exec D P) (cfg : Pipeline P) : List (Cb × String) → D → D × Option Err
  | [], d => (d, none)
  | (cb, s) :: l, d =>
    match exec cb cfg s d with
    | (d', some e) => (d', some e)
    | (d', none) => runCallbacks exec cfg l d'

/-- The processing attached to a step when checking. -/
def checkCallbacks : String → List Cb
  | "estimation" => [.estimationCheck]
  | "matching_cost" => [.matchingCostCheck]
  | "disparity" => [.disparityCheck]
  | "refinement" => [.refinementCheck]
  | _ => []

/-- The processing attached to a step when running. -/
def runCallbacksOf : String → List Cb
  | "estimation" => [.estimationRun]
  | "matching_cost" => [.matchingCostPrepare, .matchingCostRun]
  | "disparity" => [.dispMapsRun]
  | "refinement" => [.refinementRun]
  | _ => []

/-- All the processing of a list of steps when checking. -/
def checkPlan (l : List String) : List (Cb × String) := l.flatMap fun s => (checkCallbacks s).map fun cb => (cb, s)

/-- All the processing of a list of steps when running (steps are called with their full name). -/
def runPlan (l : List String) : List (Cb × String) :=
  l.flatMap fun s => (runCallbacksOf (stepOf s)).map fun cb => (cb, s)

/-- `c` is the checked configuration of the step `s` configured by `p`. -/
def Checked {M : Type} (st : Steps P M) (s : String) (p c : P) : Prop :=
  (s = "estimation" ∧ st.estimation p = .ok c) ∨
  (s = "matching_cost" ∧ ∃ a b m, st.matchingCost p = .ok (c, a, b, m)) ∨
  (s = "disparity" ∧ ∃ m, st.disparity p = .ok (c, m)) ∨
  (s = "refinement" ∧ ∃ a b m, st.refinement p a b = .ok (c, m))

end Verif.Spec
