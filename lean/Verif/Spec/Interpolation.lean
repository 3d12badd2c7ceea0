import Verif.Model.Interpolation

/-! # Specification of the interpolation refinement -/

namespace Verif.Spec

open Verif Verif.Disparity Verif.Interpolation

variable {K : Type} [Field K] [LinearOrder K]

/-- The cost surface of pixel `(r, c)`: row disparities along its rows, column disparities along its columns. -/
def pixelSurface (cv : CostVolumes K) (r c : Nat) : Arr2 (F K) :=
  ⟨cv.dispRow.n, cv.dispCol.n, fun j i => cv.data r c i j⟩

/-- Every cost of the pixel is NaN or the infinity that a minimisation never selects. -/
def NoCost (cv : CostVolumes K) (r c : Nat) : Prop :=
  ∀ i < cv.dispCol.n, ∀ j < cv.dispRow.n, cv.data r c i j = .nan ∨ cv.data r c i j = cv.measure.worst

/-- The value to minimise: a cost, or the opposite of a similarity. -/
def toMinimise : Measure → F K → F K
  | .min, v => v
  | .max, v => v.neg

/-- The place of a cell of a matrix of `w` columns, row by row. -/
def rank (w : Nat) (p : Nat × Nat) : Nat := p.1 * w + p.2

/-- The first of the cells of `S`, row by row. -/
def FirstOf (w : Nat) (S : Nat × Nat → Prop) (p : Nat × Nat) : Prop := S p ∧ ∀ q, S q → rank w p ≤ rank w q

/-- The last of the cells of `S`, row by row. -/
def LastOf (w : Nat) (S : Nat × Nat → Prop) (p : Nat × Nat) : Prop := S p ∧ ∀ q, S q → rank w q ≤ rank w p

/-- The value given to the cells of row `j` whose cost is missing, from the cells `known`: on the line between the last known cell which is not
below this row and the first one which is below, according to their rows only; the value of the one when the other does not exist. -/
structure RowFilled (w : Nat) (known : Nat × Nat → Prop) (m : Nat → Nat → F K) (j : Nat) (v : F K) : Prop where
  above : (∀ p, known p → j < p.1) → ∀ p, FirstOf w known p → v = m p.1 p.2
  below : (∀ p, known p → p.1 ≤ j) → ∀ p, LastOf w known p → v = m p.1 p.2
  between : ∀ p q, LastOf w (fun p => known p ∧ p.1 ≤ j) p → FirstOf w (fun p => known p ∧ j < p.1) q →
    v = if p.1 = j then m p.1 p.2 else
      F.add (m p.1 p.2) (F.mul (OpticalFlow.fsub (m q.1 q.2) (m p.1 p.2)) (.fin (((j : K) - (p.1 : K)) / ((q.1 : K) - (p.1 : K)))))

/-- `minimize` stays in its bounds. -/
def BoundsContract (e : IExt K) : Prop :=
  ∀ f x0 b, b.1.1 ≤ b.1.2 → b.2.1 ≤ b.2.2 →
    b.1.1 ≤ (e.minimize f x0 b).1 ∧ (e.minimize f x0 b).1 ≤ b.1.2 ∧
    b.2.1 ≤ (e.minimize f x0 b).2 ∧ (e.minimize f x0 b).2 ≤ b.2.2

/-- `interp2d` accepts every matrix of the size of its axes and goes through the samples. -/
def InterpContract (e : IExt K) : Prop :=
  ∀ (x y : Arr1 K) (m : Arr2 (F K)), m.h = y.n → m.w = x.n → ∃ f, e.interp2d x y m = .ok f ∧
    ((∀ i j, i < j → j < x.n → x.get i < x.get j) → (∀ i j, i < j → j < y.n → y.get i < y.get j) →
      ∀ i < x.n, ∀ j < y.n, f (x.get i) (y.get j) = m.get j i)

end Verif.Spec
