import Verif.Model.Datasets
import Verif.Spec.Config
import Verif.Spec.OwnRange

/-!
# Specification of the creation of the datasets
-/

namespace Verif.Spec

open Verif Verif.Config Verif.ImgTools Verif.MatchingCost Verif.Datasets

/-- The sides of the disk seen by the checks and by the creation of the datasets agree: grids of one size, images which are not empty and
are zones (the whole or a crop) of the image measured by the check. -/
structure SameDisk {K : Type} (env : Config.Env) (files : Files K) (inp : Fields) (roi : Option Roi) (li ri : Img K) : Prop where
  grids : ∀ s g, env.openGrid s = .ok g → (files.grid s).h = g.height ∧ (files.grid s).w = g.width
  left : ∀ v, inp.get "left" = some v → files.read v roi = .ok li
  right : ∀ v, inp.get "right" = some v → files.read v roi = .ok ri
  hpos : 0 < li.h
  wpos : 0 < li.w
  zone : ∀ H W, env.imageSize (.obj inp) = .ok (H, W) →
    0 ≤ li.row0 ∧ li.row0 + li.h ≤ (H : Int) ∧ 0 ≤ li.col0 ∧ li.col0 + li.w ≤ (W : Int)

/-- The two images have the same coordinates. -/
def SameZone {K : Type} (a b : Img K) : Prop := a.row0 = b.row0 ∧ a.col0 = b.col0 ∧ a.h = b.h ∧ a.w = b.w

/-- The disparity written in an input section under a key: `init` is an integer or the path of a grid. -/
def IsDisp {K : Type} (files : Files K) (inp : Fields) (key : String) (d : Disp) : Prop :=
  ∃ f i r, inp.get key = some (.obj f) ∧ f.get "init" = some i ∧ f.get "range" = some r ∧ IsInt true r d.range ∧
    ((∃ n, IsInt true i n ∧ d.init = .const n) ∨ (∃ s, i = .str s ∧ d.init = .grid (files.grid s)))

/-- A number at least one: an integer, `True`, a finite number or infinity. -/
def AtLeastOne (v : J) : Prop := (∃ i, IsInt true v i ∧ 1 ≤ i) ∨ (∃ q : Rat, v = .float (.fin q) ∧ 1 ≤ q) ∨ v = .float .pinf

end Verif.Spec
