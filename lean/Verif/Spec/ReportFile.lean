import Verif.Model.ReportFile
import Verif.Spec.Main

/-!
# Specification: a reader of standard JSON (RFC 8259)

A number is written with digits; the only letters outside quotes are `null`, `true` and `false`. The reader gives nothing when the text is not a JSON
text. Arrays are left out: the texts of the model have no brackets.
-/

namespace Verif.Spec

open Verif Verif.ReportFile Verif.Save

variable {K : Type}

mutual
/-- A JSON value, without arrays. -/
inductive Json (K : Type) where
  | null
  | bool (b : Bool)
  | num (x : K)
  | str (s : String)
  | obj (l : Members K)

/-- The members of an object. -/
inductive Members (K : Type) where
  | nil
  | cons (k : String) (v : Json K) (rest : Members K)
end

mutual
/-- One value at the start of the text, and what follows. The first argument limits the number of nested calls. -/
def jsonValue : Nat → List (Tok K) → Option (Json K × List (Tok K))
  | n + 1, t =>
    match t with
    | .number x :: r => some (.num x, r)
    | .str s :: r => some (.str s, r)
    | .word s :: r =>
      if s = "null" then some (.null, r) else if s = "true" then some (.bool true, r) else if s = "false" then some (.bool false, r) else none
    | .lbrace :: .rbrace :: r => some (.obj .nil, r)
    | .lbrace :: r => (jsonMembers n r).map fun m => (.obj m.1, m.2)
    | _ => none
  | 0, _ => none

/-- The members of an object and its closing brace. -/
def jsonMembers : Nat → List (Tok K) → Option (Members K × List (Tok K))
  | n + 1, t =>
    match t with
    | .str k :: .colon :: r =>
      match jsonValue n r with
      | some (v, .rbrace :: r') => some (.cons k v .nil, r')
      | some (v, .comma :: r') => (jsonMembers n r').map fun m => (.cons k v m.1, m.2)
      | _ => none
    | _ => none
  | 0, _ => none
end

/-- What a reader of standard JSON finds in a text. -/
def readJson (t : List (Tok K)) : Option (Json K) :=
  match jsonValue t.length t with
  | some (d, []) => some d
  | _ => none

/-- The value of a key. -/
def itemOf : Members K → String → Option (Json K)
  | .nil, _ => none
  | .cons k v r, k' => if k = k' then some v else itemOf r k'
termination_by structural l => l

/-- The number found by following keys. -/
def numberAt : Json K → List String → Option K
  | .num x, [] => some x
  | .obj l, k :: ks => (itemOf l k).bind fun d => numberAt d ks
  | _, _ => none
termination_by structural _ ks => ks

/-- A raster with a pixel which is neither NaN nor the invalid value. -/
def HasValid (f : File K (F K)) (invalid : F K) : Prop := ∃ i < f.h, ∃ j < f.w, f.values i j ≠ .nan ∧ f.values i j ≠ invalid

/-- A raster without infinity, except when it is the invalid value. -/
def NoInfinity (f : File K (F K)) (invalid : F K) : Prop :=
  ∀ i < f.h, ∀ j < f.w, f.values i j = invalid ∨ f.values i j = .nan ∨ ∃ x, f.values i j = .fin x

/-- The numbers of one raster in the report: the mean, the deviation and the quantiles of its valid pixels. -/
structure ReportsFile [Field K] [LinearOrder K] (sqrt : F K → F K) (d : Json K) (axis : String) (f : File K (F K)) (invalid : F K) : Prop where
  mean : ∃ xs m, ValidValues (some invalid) (filePixels f) xs ∧ IsMean xs m ∧ numberAt d ["statistics", "disparity", axis, "mean"] = some m
  std : ∃ xs m v s, ValidValues (some invalid) (filePixels f) xs ∧ IsMean xs m ∧ IsVariance xs m v ∧ sqrt (.fin v) = .fin s ∧
    numberAt d ["statistics", "disparity", axis, "std"] = some s
  quantiles : ∃ xs, ValidValues (some invalid) (filePixels f) xs ∧
    ∀ k p, (k, p) ∈ [("p10", 2), ("p25", 5), ("p50", 10), ("p75", 15), ("p90", 18)] →
      ∃ q, IsQuantile xs p q ∧ numberAt d ["statistics", "disparity", axis, "quantiles", k] = some q
  ratio : ∃ x, numberAt d ["statistics", "disparity", axis, "minimal_valid_pixel_ratio"] = some x ∧ 0 ≤ x ∧ x ≤ 1

end Verif.Spec
