import Verif.Model.ConfigFile

/-!
# Specification: the grammar of standard JSON (RFC 8259)

`Denotes v t`: the text `t` is a standard JSON text of the value `v`. The only letters outside quotes are `null`, `true` and `false`; a number is written
with digits.
-/

namespace Verif.Spec

open Verif Verif.Config Verif.ConfigFile

mutual
/-- A standard text of a value. -/
inductive Denotes : J → List Tok → Prop
  | null : Denotes .null [.word "null"]
  | true : Denotes (.bool true) [.word "true"]
  | false : Denotes (.bool false) [.word "false"]
  | int (i : Int) : Denotes (.int i) [.int i]
  | float (x : Rat) : Denotes (.float (.fin x)) [.float x]
  | str (s : String) : Denotes (.str s) [.str s]
  | emptyArray : Denotes (.arr .nil) [.lbracket, .rbracket]
  | array {l : Js} {t : List Tok} : Elements l t → Denotes (.arr l) (.lbracket :: (t ++ [.rbracket]))
  | emptyObject : Denotes (.obj .nil) [.lbrace, .rbrace]
  | object {f : Fields} {t : List Tok} : Pairs f t → Denotes (.obj f) (.lbrace :: (t ++ [.rbrace]))

/-- The elements of an array, separated by commas. -/
inductive Elements : Js → List Tok → Prop
  | one {v : J} {t : List Tok} : Denotes v t → Elements (.cons v .nil) t
  | more {v : J} {l : Js} {t t' : List Tok} : Denotes v t → Elements l t' → Elements (.cons v l) (t ++ .comma :: t')

/-- The members of an object, separated by commas. -/
inductive Pairs : Fields → List Tok → Prop
  | one {k : String} {v : J} {t : List Tok} : Denotes v t → Pairs (.cons k v .nil) (.str k :: .colon :: t)
  | more {k : String} {v : J} {f : Fields} {t t' : List Tok} : Denotes v t → Pairs f t' → Pairs (.cons k v f) (.str k :: .colon :: (t ++ .comma :: t'))
end

/-- A standard JSON text. -/
def StandardText (t : List Tok) : Prop := ∃ v, Denotes v t

mutual
/-- No NaN and no infinity in a value. -/
def allNumbers : J → Bool
  | .float (.fin _) => true
  | .float _ => false
  | .arr l => allNumbersIn l
  | .obj f => allNumbersOf f
  | _ => true

/-- No NaN and no infinity in a list. -/
def allNumbersIn : Js → Bool
  | .nil => true
  | .cons v r => allNumbers v && allNumbersIn r

/-- No NaN and no infinity in a dictionary. -/
def allNumbersOf : Fields → Bool
  | .nil => true
  | .cons _ v r => allNumbers v && allNumbersOf r
end

end Verif.Spec
