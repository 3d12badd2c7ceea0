import Verif.Model.Main

/-!
# Model of the configuration files

`__init__.py` 96 (`read_config_file`) and 136 (`save_config`): `json.load` and `json.dump` with their default arguments but for `indent=2`. A text is
the list of its tokens. Simplifications: white space is left out, the digits of a number are the number itself (`repr` can be read back exactly, a
float is never written like an integer), the escape sequences of a string are the string itself; a configuration which is not a dictionary is one
error value.
-/

namespace Verif.ConfigFile

open Verif Verif.Config Verif.Main

/-- A token of the text: the digits of an integer, the digits of a float, a string between quotes, a sign, or letters outside quotes. -/
inductive Tok where
  | int (i : Int)
  | float (x : Rat)
  | str (s : String)
  | lbrace
  | rbrace
  | lbracket
  | rbracket
  | colon
  | comma
  | word (s : String)
deriving DecidableEq

/-- `json.encoder.floatstr`, with `allow_nan` left to its default `True`. -/
def floatTok : F Rat → Tok
  | .fin x => .float x
  | .nan => .word "NaN"
  | .pinf => .word "Infinity"
  | .ninf => .word "-Infinity"

mutual
/-- `json.dump`, in `save_config` of Pandora, __init__.py 136. -/
def dump : J → List Tok
  | .null => [.word "null"]
  | .bool b => [.word (if b then "true" else "false")]
  | .int i => [.int i]
  | .float x => [floatTok x]
  | .str s => [.str s]
  | .arr l => .lbracket :: (dumpItems l ++ [.rbracket])
  | .obj f => .lbrace :: (dumpFields f ++ [.rbrace])

/-- The items of a list or of a tuple in `json.dump`. -/
def dumpItems : Js → List Tok
  | .nil => []
  | .cons v .nil => dump v
  | .cons v (.cons v' r) => dump v ++ .comma :: dumpItems (.cons v' r)

/-- The items of a dictionary in `json.dump`. -/
def dumpFields : Fields → List Tok
  | .nil => []
  | .cons k v .nil => .str k :: .colon :: dump v
  | .cons k v (.cons k' v' r) => .str k :: .colon :: (dump v ++ .comma :: dumpFields (.cons k' v' r))
end

/-- The words `json.load` knows: `json.scanner` and the default `parse_constant` of `json.decoder`. -/
def wordValue (s : String) : Option J :=
  if s = "null" then some .null else if s = "true" then some (.bool true) else if s = "false" then some (.bool false)
  else if s = "NaN" then some (.float .nan) else if s = "Infinity" then some (.float .pinf) else if s = "-Infinity" then some (.float .ninf)
  else none

mutual
/-- `json.scanner.scan_once`: one value at the start of the text, and what follows. The first argument limits the number of nested calls. -/
def scan : Nat → List Tok → Option (J × List Tok)
  | n + 1, t =>
    match t with
    | .int i :: r => some (.int i, r)
    | .float x :: r => some (.float (.fin x), r)
    | .str s :: r => some (.str s, r)
    | .word s :: r => (wordValue s).map fun v => (v, r)
    | .lbracket :: .rbracket :: r => some (.arr .nil, r)
    | .lbracket :: r => (scanItems n r).map fun l => (.arr l.1, l.2)
    | .lbrace :: .rbrace :: r => some (.obj .nil, r)
    | .lbrace :: r => (scanFields n r).map fun f => (.obj f.1, f.2)
    | _ => none
  | 0, _ => none

/-- `json.decoder.JSONArray`. -/
def scanItems : Nat → List Tok → Option (Js × List Tok)
  | n + 1, t =>
    match scan n t with
    | some (v, .rbracket :: r) => some (.cons v .nil, r)
    | some (v, .comma :: r) => (scanItems n r).map fun l => (.cons v l.1, l.2)
    | _ => none
  | 0, _ => none

/-- `json.decoder.JSONObject`: the items in their order. Two items with the same key are kept as they are (`json.load` keeps the last one). -/
def scanFields : Nat → List Tok → Option (Fields × List Tok)
  | n + 1, t =>
    match t with
    | .str k :: .colon :: r =>
      match scan n r with
      | some (v, .rbrace :: r') => some (.cons k v .nil, r')
      | some (v, .comma :: r') => (scanFields n r').map fun f => (.cons k v f.1, f.2)
      | _ => none
    | _ => none
  | 0, _ => none
end

/-- `json.load`, in `read_config_file` of Pandora, __init__.py 96. -/
def load (t : List Tok) : Option J :=
  match scan (t.length + 1) t with
  | some (v, []) => some v
  | _ => none

variable {K : Type} [Field K] [LinearOrder K] [IsStrictOrderedRing K] [FloorRing K]

/-- `main` on a file, __init__.py 80-140: `JSONDecodeError` is a `ValueError`. -/
def mainFile (w : World K) (t : List Tok) : List (Written K) × Option Err :=
  match load t with
  | some (.obj user) => Main.main w user
  | some _ => ([], some .typeError)
  | none => ([], some .valueError)

end Verif.ConfigFile
