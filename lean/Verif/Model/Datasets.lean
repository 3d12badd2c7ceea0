import Verif.Model.Config
import Verif.Model.MatchingCost

/-!
# Creation of the datasets

Model of `create_datasets_from_inputs` and of the checks of the disparities in `pandora2d/img_tools.py`, and of `check_datasets` in
`pandora2d/check_configuration.py`.
-/

namespace Verif.Datasets

open Verif Verif.Config Verif.ImgTools Verif.MatchingCost

/-! ## Checks of the disparities -/

/-- `check_disparity_presence`, img_tools.py 111-124. -/
def checkPresence (input : Fields) : Except Err Unit :=
  match input.get "col_disparity", input.get "row_disparity" with
  | some _, some _ => .ok ()
  | _, _ => .error .keyError

/-- `disparity["range"] < 0 or not isinstance(disparity["range"], int)`, 153. -/
def checkRange : J → Except Err Unit
  | .int i => if i < 0 then .error .valueError else .ok ()
  | .bool _ => .ok ()
  | .float _ => .error .valueError
  | _ => .error .typeError

/-- `check_disparity_types`, img_tools.py 127-154. -/
def checkTypes : J → Except Err Unit
  | .obj f =>
    if f.keys.all (fun k => decide (k = "init" ∨ k = "range")) then
      match f.get "init", f.get "range" with
      | some i, some r => if isIntPy i || isStr i then checkRange r else .error .valueError
      | _, _ => .error .valueError
    else .error .valueError
  | _ => .error .valueError

/-- `check_disparities`, img_tools.py 97-108. -/
def checkDisparities (input : Fields) : Except Err Unit := do
  checkPresence input
  let c ← item input "col_disparity"
  let r ← item input "row_disparity"
  checkTypes c
  checkTypes r

/-! ## Datasets -/

/-- The files: Pandora's `create_dataset_from_inputs(input, roi)`, and the values of the one-band disparity grids. -/
structure Files (K : Type) where
  read : J → Option Roi → Except Err (Img K)
  grid : String → Arr2 Int

variable {K : Type}

/-- The disparity of a section of the configuration, img_tools.py 207-222: an initial value which is neither an integer nor a string
leaves the result undefined (UnboundLocalError, a NameError). -/
def dispOf (files : Files K) : J → Except Err Disp
  | .obj f => do
    let i ← item f "init"
    if isIntPy i then do
      let r ← rangeOf f
      return ⟨.const (pyInt i), r⟩
    else match i with
      | .str s => do
        let r ← rangeOf f
        return ⟨.grid (files.grid s), r⟩
      | _ => .error .nameError
  | _ => .error .typeError

/-- `add_disparity_grid`, img_tools.py 157-189. -/
def addDisparityGrid (files : Files K) (img : Img K) (col row : J) (right : Bool) : Except Err (Left K) := do
  let dc ← dispOf files col
  let c ← getMinMax img.row0 img.col0 img.h img.w dc right
  let dr ← dispOf files row
  let r ← getMinMax img.row0 img.col0 img.h img.w dr right
  return ⟨img, c, r⟩

/-- `{"init": -9999, "range": 0}`, img_tools.py 84-85. -/
def placeholder : J := .obj (.cons "init" (.int (-9999)) (.cons "range" (.int 0) .nil))

/-- `create_datasets_from_inputs`, img_tools.py 55-94: the input section after the call (modified in place when there is an estimation),
the left and the right datasets. -/
def createDatasets (files : Files K) (input : Fields) (roi : Option Roi) (estimation : Bool) :
    Except Err (Fields × Left K × Left K) := do
  let input ← if estimation then pure ((input.set "col_disparity" placeholder).set "row_disparity" placeholder)
    else do
      checkDisparities input
      pure input
  let l ← item input "left"
  let li ← files.read l roi
  let c ← item input "col_disparity"
  let r ← item input "row_disparity"
  let left ← addDisparityGrid files li c r false
  let rg ← item input "right"
  let ri ← files.read rg roi
  let right ← addDisparityGrid files ri c r true
  return (input, left, right)

/-- `check_datasets`, check_configuration.py 48-69. `check` is Pandora's `check_dataset`. The datasets created above have their
disparities. -/
def checkDatasets (check : Left K → Option Err) (left right : Left K) : Except Err Unit :=
  match check left with
  | some e => .error e
  | none =>
    match check right with
    | some e => .error e
    | none => if (left.img.h, left.img.w) ≠ (right.img.h, right.img.w) then .error .valueError else .ok ()

end Verif.Datasets
