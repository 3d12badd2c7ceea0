import Verif.Model.ImgTools
import Mathlib.Algebra.Field.Basic

/-!
# Model of the writing of the results, `pandora2d/common.py` 49-141
-/

namespace Verif.Save

open Verif Verif.ImgTools

/-- `rasterio.Affine(a, b, c, d, e, f)` (contract): `(x, y) ↦ (a x + b y + c, d x + e y + f)`. -/
structure Affine (K : Type) where
  a : K
  b : K
  c : K
  d : K
  e : K
  f : K

variable {K : Type} [Field K]

/-- `Affine.__mul__` of two transforms (contract): `(s * t)(p) = s(t(p))`, as the product of 3 x 3 matrices. -/
def Affine.mul (s t : Affine K) : Affine K where
  a := s.a * t.a + s.b * t.d
  b := s.a * t.b + s.b * t.e
  c := s.a * t.c + s.b * t.f + s.c
  d := s.d * t.a + s.e * t.d
  e := s.d * t.b + s.e * t.e
  f := s.d * t.c + s.e * t.f + s.f

/-- `Affine.translation(xoff, yoff)`. -/
def Affine.translation (x y : K) : Affine K := ⟨1, 0, x, 0, 1, y⟩

/-- `Affine.scale(sx, sy)`. -/
def Affine.scale (x y : K) : Affine K := ⟨x, 0, 0, 0, y, 0⟩

/-- Disparity maps dataset with its attributes `crs` and `transform` (disp_maps_run, state_machine.py 368-379). -/
structure OutDs (K β : Type) where
  maps : MapsDs β
  crs : Option String
  transform : Option (Affine K)

/-- The part of the configuration used when saving: `ROI` and `pipeline.matching_cost.step = [row, col]` when present. -/
structure SaveCfg where
  roi : Option Roi
  step : Option (Nat × Nat)

/-- `get_step`, common.py 114-125. -/
def getStep (cfg : SaveCfg) : Nat × Nat :=
  match cfg.step with
  | some s => s
  | none => (1, 1)

/-- `adjust_georeferencement` with `set_pixel_size`, common.py 98-111 and 128-141, on the transform. -/
def adjust (cfg : SaveCfg) (t : Affine K) : Affine K :=
  let t := match cfg.roi with
    | some r => t.mul (Affine.translation (r.colFirst : K) (r.rowFirst : K))
    | none => t
  let (rowStep, colStep) := getStep cfg
  t.mul (Affine.scale (colStep : K) (rowStep : K))

/-- A file written by `write_data_array`: values, coordinate system and transform. -/
structure File (K β : Type) where
  h : Nat
  w : Nat
  values : Nat → Nat → β
  crs : Option String
  transform : Option (Affine K)

/-- `row_disparity.tif`, `columns_disparity.tif` and `correlation_score.tif`. -/
structure Files (K β : Type) where
  row : File K β
  col : File K β
  score : File K β

/-- The dataset of which the attributes are modified and which is written, common.py 66-70: with a ROI, the new dataset of
`remove_roi_margins` (which needs the step of the configuration, `KeyError` otherwise); its attributes are a copy of those of
the given dataset (xarray contract: the setter of `attrs` copies the dictionary). -/
def prepared {β : Type} (ds : OutDs K β) (cfg : SaveCfg) : Except Err (OutDs K β) := do
  let ds ← match cfg.roi with
    | some r => match cfg.step with
      | some s => do
        let maps ← removeRoiMargins ds.maps r s.1 s.2
        pure { ds with maps := maps }
      | none => throw Err.keyError
    | none => pure ds
  match ds.transform with
  | some t => return { ds with transform := some (adjust cfg t) }
  | none => return ds

/-- `save_dataset`, common.py 49-95: the files, and the dataset of the caller after the call. Without ROI the dataset which
is modified is the one of the caller, with a ROI it is the new one. -/
def saveDataset {β : Type} (ds : OutDs K β) (cfg : SaveCfg) : Except Err (Files K β × OutDs K β) := do
  let out ← prepared ds cfg
  let file := fun v : Nat → Nat → β => (⟨out.maps.row.n, out.maps.col.n, v, out.crs, out.transform⟩ : File K β)
  return (⟨file out.maps.rowMap, file out.maps.colMap, file out.maps.score⟩, if cfg.roi.isSome then ds else out)

end Verif.Save
