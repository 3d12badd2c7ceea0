import Verif.Py.Float
import Mathlib.Data.Rat.Defs

/-!
# Configuration values

Model of the Python values read from the JSON configuration, and of Pandora's `update_conf`
(`pandora.check_configuration.update_conf`, external, contract recorded in DESIGN.md).
-/

namespace Verif

mutual
/-- A configuration value. -/
inductive J where
  | null
  | bool (b : Bool)
  | int (i : Int)
  | float (x : F Rat)
  | str (s : String)
  | arr (l : Js)
  | obj (f : Fields)

/-- A Python list. -/
inductive Js where
  | nil
  | cons (v : J) (rest : Js)

/-- A Python dictionary, in insertion order. -/
inductive Fields where
  | nil
  | cons (k : String) (v : J) (rest : Fields)
end

deriving instance DecidableEq for J, Js, Fields

def Js.toList : Js → List J
  | .nil => []
  | .cons v r => v :: r.toList

namespace Fields

/-- `d.get(k)` as an option. -/
def get : Fields → String → Option J
  | nil, _ => none
  | cons k v r, k' => if k = k' then some v else r.get k'

/-- `d[k] = v`: the position of an existing key is kept, a new key goes to the end. -/
def set : Fields → String → J → Fields
  | nil, k', v' => cons k' v' nil
  | cons k v r, k', v' => if k = k' then cons k v' r else cons k v (r.set k' v')

/-- The keys, in order. -/
def keys : Fields → List String
  | nil => []
  | cons k _ r => k :: r.keys

/-- `if k not in d: d[k] = v`. -/
def setDefault (f : Fields) (k : String) (v : J) : Fields :=
  match f.get k with
  | some _ => f
  | none => f.set k v

/-- Concatenation of dictionaries with different keys (`concat_conf` on the sections). -/
def append : Fields → Fields → Fields
  | nil, g => g
  | cons k v r, g => cons k v (r.append g)

end Fields

/-- Conversion of the strings "NaN", "inf" and "-inf" by `update_conf`. -/
def conv : J → J
  | .str s => if s = "NaN" then .float .nan else if s = "inf" then .float .pinf else if s = "-inf" then .float .ninf else .str s
  | v => v

mutual
/-- `update_conf(def_cfg, user_cfg)`. `def_cfg` is copied, then each value of the user is written: dictionaries recursively
(with `config.get(key, {})` as default), other values after conversion. -/
def updateConf (d : Fields) : Fields → Except Err Fields
  | .nil => .ok d
  | .cons k v r =>
    match updateVal (d.get k) v with
    | .error e => .error e
    | .ok v' => updateConf (d.set k v') r

/-- The value written for one key. When the default is not a dictionary and the user gives a dictionary, the default is copied
and then written with `config[key] = …`, which raises TypeError unless the user's dictionary is empty. -/
def updateVal (old : Option J) : J → Except Err J
  | .obj f =>
    match old with
    | none => (updateConf .nil f).map .obj
    | some (.obj g) => (updateConf g f).map .obj
    | some x => match f with
      | .nil => .ok x
      | .cons .. => .error .typeError
  | v => .ok (conv v)
end

end Verif
