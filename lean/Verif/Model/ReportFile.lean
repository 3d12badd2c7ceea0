import Verif.Model.Statistics

/-!
# Model of the file `report.json`

`__init__.py` 130-132 and `reporting.py` 29-51. A text is the list of its tokens. Simplifications: the white space of `indent=2` is left out, and
the digits of a number are the number itself (`float.__repr__` can be read back exactly).
-/

namespace Verif.ReportFile

open Verif Verif.Statistics

mutual
/-- A dictionary of dictionaries whose leaves are numbers. -/
inductive Doc (α : Type) where
  | num (x : α)
  | obj (l : Items α)

/-- The items of a dictionary, in insertion order. -/
inductive Items (α : Type) where
  | nil
  | cons (k : String) (v : Doc α) (rest : Items α)
end

/-- A token of the text: a number written with digits, a string between quotes, a sign, or letters outside quotes. -/
inductive Tok (K : Type) where
  | number (x : K)
  | str (s : String)
  | lbrace
  | rbrace
  | colon
  | comma
  | word (s : String)

variable {K : Type}

/-- `json.JSONEncoder` on a float, with `allow_nan` left to its default `True`; `NumpyPrimitiveEncoder.default`, reporting.py 32-37, gives it
the Python float of a numpy one. -/
def floatText : F K → Tok K
  | .fin x => .number x
  | .nan => .word "NaN"
  | .pinf => .word "Infinity"
  | .ninf => .word "-Infinity"

mutual
/-- `json.dump`. -/
def dump : Doc (F K) → List (Tok K)
  | .num x => [floatText x]
  | .obj l => .lbrace :: (dumpItems l ++ [.rbrace])

/-- The items of a dictionary in `json.dump`. -/
def dumpItems : Items (F K) → List (Tok K)
  | .nil => []
  | .cons k v .nil => .str k :: .colon :: dump v
  | .cons k v (.cons k' v' r) => .str k :: .colon :: (dump v ++ .comma :: dumpItems (.cons k' v' r))
end

/-- A dictionary from the list of its items. -/
def record {α : Type} : List (String × Doc α) → Doc α := fun l => .obj (l.foldr (fun i r => .cons i.1 i.2 r) .nil)

/-- `Statistics.to_dict`, statistics.py 50-53: `asdict` of the two data classes, 27-46. -/
def toDict (s : Stats K) : Doc (F K) :=
  record [("mean", .num s.mean), ("std", .num s.std),
    ("quantiles", record ((["p10", "p25", "p50", "p75", "p90"].zip s.quantiles).map fun q => (q.1, .num q.2))),
    ("minimal_valid_pixel_ratio", .num s.ratio)]

/-- The text of `report.json`, __init__.py 130-132, with the dictionary of `report_disparities`, reporting.py 51. -/
def reportFile (row col : Stats K) : List (Tok K) :=
  dump (record [("statistics", record [("disparity", record [("row", toDict row), ("col", toDict col)])])])

end Verif.ReportFile
