import Verif.Model.Profiling

/-! # Specification of the profiling -/

namespace Verif.Spec

open Verif.Profiling

/-- Largest of a list of readings (0 for none). -/
def largest (l : List Nat) : Nat := l.foldr max 0

/-- The file exactly as the function left it, with one more line at its end, and a header first if there was no file. -/
def OneMoreLine (before after : Option (List Row)) (row : Row) : Prop :=
  after = some ((before.getD [.header]) ++ [row])

mutual
/-- Names of the calls which return, in the order of their returns, and whether the call returns. -/
def returns : Call → Bool × List String
  | .node name _ _ raises inner =>
    let (ok, l) := returnsList inner
    if ok && !raises then (true, l ++ [name]) else (false, l)
/-- The same for calls in sequence. -/
def returnsList : List Call → Bool × List String
  | [] => (true, [])
  | k :: ks =>
    let (ok, l) := returns k
    if ok then ((returnsList ks).1, l ++ (returnsList ks).2) else (false, l)
end

/-- Names of the lines of a file. -/
def namesOf (csv : Option (List Row)) : List String :=
  (csv.getD []).filterMap fun | .header => none | .line n _ _ => some n

/-- A file is well formed: absent, or one header followed by lines. -/
def GoodFile : Option (List Row) → Prop
  | none => True
  | some l => ∃ q, l = .header :: q ∧ Row.header ∉ q

end Verif.Spec
