import Verif.Model.ImgTools

/-!
# Specifications for the images, disparity ranges and regions of interest
-/

namespace Verif.Spec

open Verif Verif.ImgTools

/-- The initial disparity configured for the pixel at image row `r`, column `c`. -/
def initAt (d : Disp) (r c : Int) : Int :=
  match d.init with
  | .const i => i
  | .grid g => g.get r.toNat c.toNat

/-- The disparity configuration is defined on the rectangle of rows `[row0, row0 + h)` and columns `[col0, col0 + w)` and
this rectangle has at least two rows and two columns when it is read from a grid. -/
def Covers (d : Disp) (row0 col0 : Int) (h w : Nat) : Prop :=
  match d.init with
  | .const _ => True
  | .grid g => 0 ≤ row0 ∧ row0 + h ≤ g.h ∧ 0 ≤ col0 ∧ col0 + w ≤ g.w ∧ 2 ≤ h ∧ 2 ≤ w

/-- The coordinates are the arithmetic progression of the given step starting at `a`. -/
def IsProg (x : Arr1 Int) (a : Int) (step : Nat) : Prop := ∀ k < x.n, x.get k = a + (k : Int) * step

/-- A disparity `δ` belongs to the range of some pixel. -/
def InDispRange (d : Disp) (δ : Int) : Prop :=
  match d.init with
  | .const i => i - d.range ≤ δ ∧ δ ≤ i + d.range
  | .grid g => ∃ r < g.h, ∃ c < g.w, g.get r c - d.range ≤ δ ∧ δ ≤ g.get r c + d.range

end Verif.Spec
