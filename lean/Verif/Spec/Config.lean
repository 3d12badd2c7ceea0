import Verif.Lemmas.Json
import Verif.Model.Config
import Mathlib.Algebra.Order.Field.Basic

/-!
# Specification of the configuration checks
-/

namespace Verif.Spec

open Verif

/-- Some pixel of an axis of `n` pixels has a candidate inside the image, with disparities between `lo` and `hi`. -/
def HasCandidate (n : Nat) (lo hi : Int) : Prop :=
  ∃ x d : Int, 0 ≤ x ∧ x < n ∧ lo ≤ d ∧ d ≤ hi ∧ 0 ≤ x + d ∧ x + d < n

/-- An integer of the configuration; `bi` tells whether Booleans are integers. -/
def IsInt (bi : Bool) (v : J) (i : Int) : Prop :=
  v = .int i ∨ (bi = true ∧ ((v = .bool true ∧ i = 1) ∨ (v = .bool false ∧ i = 0)))

/-- One direction of a ROI: a dictionary with exactly `first` and `last`, non-negative integers, in order. -/
def RoiDirection (bi : Bool) (v : J) : Prop :=
  ∃ f a b i j, v = .obj f ∧ (∀ k, k ∈ f.keys ↔ k = "first" ∨ k = "last") ∧ f.get "first" = some a ∧ f.get "last" = some b ∧
    IsInt bi a i ∧ IsInt bi b j ∧ 0 ≤ i ∧ i ≤ j

/-- A correct ROI. -/
def RoiOk (bi : Bool) (v : J) : Prop :=
  ∃ f r c, v = .obj f ∧ (∀ k, k ∈ f.keys ↔ k = "row" ∨ k = "col") ∧ f.get "row" = some r ∧ f.get "col" = some c ∧
    RoiDirection bi r ∧ RoiDirection bi c

/-- Two initial disparities of one kind: two paths or two integers. -/
def SameKind (a b : J) : Prop :=
  (∃ s t, a = .str s ∧ b = .str t) ∨ (∃ i j, IsInt true a i ∧ IsInt true b j)

/-- The value read from the configuration of the user: three strings stand for floats. -/
def readValue : J → J
  | .str "NaN" => .float .nan
  | .str "inf" => .float .pinf
  | .str "-inf" => .float .ninf
  | v => v

/-- The default values of the input section. -/
def inputDefaults : Fields :=
  .cons "input" (.obj
    (.cons "left" (.obj (.cons "nodata" (.int (-9999)) (.cons "mask" .null .nil)))
    (.cons "right" (.obj (.cons "nodata" (.int (-9999)) (.cons "mask" .null .nil))) .nil))) .nil

/-- The default values of the estimation section. -/
def estimationDefaults : Fields := .cons "range_row" (.int 5) (.cons "range_col" (.int 5) (.cons "sample_factor" (.int 1) .nil))

/-- The default values of the disparity section. -/
def disparityDefaults : Fields := .cons "invalid_disparity" (.int (-9999)) .nil

/-- The default values of the matching cost section, besides those chosen by Pandora. -/
def matchingCostDefaults : Fields := .cons "step" (.arr (.cons (.int 1) (.cons (.int 1) .nil))) .nil

/-- The default values of the optical flow section, besides those taken from the matching cost. -/
def opticalFlowDefaults : Fields := .cons "iterations" (.int 4) .nil

/-- `g` is the section `f` of the user with the defaults `d`: except under the keys of `ks`, the values of the user (read) are at the
same place, and the keys which the user has not given have their default, if any. -/
def Completed (ks : List String) (d f g : Fields) : Prop :=
  (∀ k p v, k ∉ ks → (J.obj f).at (k :: p) = some v → v.isLeaf = true → (J.obj g).at (k :: p) = some (readValue v)) ∧
  ∀ k, k ∉ ks → f.get k = none → g.get k = d.get k

end Verif.Spec
