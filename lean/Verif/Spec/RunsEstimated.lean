import Verif.Spec.RunsRoi

/-!
# Specification of the executions with a ROI and an estimation
-/

namespace Verif.Spec

open Verif Verif.Config Verif.ImgTools Verif.Main

variable {K : Type}

/-- The value `sub` of the section `key`: the one of the user, or `d` when it is absent or an empty dictionary. -/
def GivenOr (ui : Fields) (key sub : String) (d v : J) : Prop :=
  (∃ f, ui.get key = some (.obj f) ∧ f.get sub = some v ∧ ∀ g, v ≠ .obj g) ∨
    ((ui.get key = none ∨ ∃ f, ui.get key = some (.obj f) ∧ (f.get sub = none ∨ f.get sub = some (.obj .nil))) ∧ v = d)

/-- The disparity `d` which surrounds a ROI when there is an estimation: the one of the user, completed by an initial disparity of -9997 and a
range of 2. -/
def RegionDisp (files : Datasets.Files K) (ui : Fields) (key : String) (d : Disp) : Prop :=
  ∃ i r, GivenOr ui key "init" (.int (-9997)) i ∧ GivenOr ui key "range" (.int 2) r ∧ IsInt true r d.range ∧
    ((∃ n, IsInt true i n ∧ d.init = .const n) ∨ ∃ s, i = .str s ∧ s ∉ ["NaN", "inf", "-inf"] ∧ d.init = .grid (files.grid s))

/-- Two integers or two grids. -/
def SameInitKind (a b : Disp) : Prop := (∃ i j, a.init = .const i ∧ b.init = .const j) ∨ ∃ g h, a.init = .grid g ∧ b.init = .grid h

end Verif.Spec
