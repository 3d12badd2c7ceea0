import Mathlib.Algebra.Order.Field.Basic
import Mathlib.Tactic.Linarith
import Mathlib.Tactic.Ring

/-!
# Floating point values

The floats handled by Pandora2D (numpy float32/float64 cells of images, cost volumes and maps).

Simplification (recorded in DESIGN.md): finite values are elements of a linearly ordered field `K` and finite
arithmetic is exact, rounding and overflow are not modelled.  Special values follow IEEE 754 / numpy.
-/

namespace Verif

/-- A numpy float: NaN, -inf, +inf or a finite value. -/
inductive F (K : Type) where
  | nan
  | ninf
  | fin (k : K)
  | pinf
deriving DecidableEq, Repr

namespace F

variable {K : Type}

/-- `np.isnan`. -/
def isNaN : F K → Bool
  | nan => true
  | _ => false

/-- `np.isinf`. -/
def isInf : F K → Bool
  | ninf => true
  | pinf => true
  | _ => false

section order
variable [LinearOrder K]

/-- IEEE `a < b`: false as soon as one operand is NaN. -/
def lt : F K → F K → Bool
  | nan, _ => false
  | _, nan => false
  | ninf, ninf => false
  | ninf, _ => true
  | _, ninf => false
  | pinf, _ => false
  | _, pinf => true
  | fin a, fin b => decide (a < b)

/-- IEEE `a <= b`: false as soon as one operand is NaN. -/
def le : F K → F K → Bool
  | nan, _ => false
  | _, nan => false
  | ninf, _ => true
  | _, ninf => false
  | _, pinf => true
  | pinf, _ => false
  | fin a, fin b => decide (a ≤ b)

/-- IEEE `a == b`: NaN differs from everything, itself included. -/
def eq : F K → F K → Bool
  | nan, _ => false
  | _, nan => false
  | ninf, ninf => true
  | pinf, pinf => true
  | fin a, fin b => decide (a = b)
  | _, _ => false

end order

section arith
variable [Field K] [LinearOrder K]

/-- IEEE addition (exact on finite values). -/
def add : F K → F K → F K
  | nan, _ => nan
  | _, nan => nan
  | ninf, pinf => nan
  | pinf, ninf => nan
  | ninf, _ => ninf
  | _, ninf => ninf
  | pinf, _ => pinf
  | _, pinf => pinf
  | fin a, fin b => fin (a + b)

/-- IEEE negation. -/
def neg : F K → F K
  | nan => nan
  | ninf => pinf
  | pinf => ninf
  | fin a => fin (-a)

/-- IEEE multiplication (exact on finite values; the sign of zero is not modelled). -/
def mul : F K → F K → F K
  | nan, _ => nan
  | _, nan => nan
  | fin a, fin b => fin (a * b)
  | pinf, pinf => pinf
  | pinf, ninf => ninf
  | ninf, pinf => ninf
  | ninf, ninf => pinf
  | pinf, fin b => if b = 0 then nan else if 0 < b then pinf else ninf
  | ninf, fin b => if b = 0 then nan else if 0 < b then ninf else pinf
  | fin a, pinf => if a = 0 then nan else if 0 < a then pinf else ninf
  | fin a, ninf => if a = 0 then nan else if 0 < a then ninf else pinf

end arith

end F

/-- `type_measure` of a cost volume: similarity (`max`) or dissimilarity (`min`). -/
inductive Measure where
  | max
  | min
deriving DecidableEq, Repr

namespace Measure
variable {K : Type} [LinearOrder K]

/-- `a` is strictly better than `b` for the measure. -/
def better : Measure → F K → F K → Bool
  | .max, a, b => F.lt b a
  | .min, a, b => F.lt a b

/-- The infinity which loses against every other value. -/
def worst : Measure → F K
  | .max => .ninf
  | .min => .pinf

/-- One step of `np.max` / `np.min` (`np.maximum` / `np.minimum`): NaN is propagated. -/
def pick (m : Measure) (a b : F K) : F K :=
  if a.isNaN then a else if b.isNaN then b else if m.better b a then b else a

/-- `np.max` / `np.min` of a non empty sequence (the callers guard the empty case, which raises in numpy). -/
def ext (m : Measure) : List (F K) → F K
  | [] => .nan
  | x :: xs => xs.foldl m.pick x

/-- Loop of `np.argmax` / `np.argmin`: `bi` is the index of the best value `b` found so far, `i` the index of the
head of the list; the first NaN stops the search, a strictly better value replaces the best. -/
def argGo (m : Measure) (b : F K) (bi i : Nat) : List (F K) → Nat
  | [] => bi
  | x :: xs =>
    if b.isNaN then bi
    else if x.isNaN || m.better x b then m.argGo x i (i + 1) xs
    else m.argGo b bi (i + 1) xs

/-- `np.argmax` / `np.argmin` of a non empty sequence. -/
def arg (m : Measure) : List (F K) → Nat
  | [] => 0
  | x :: xs => m.argGo x 0 1 xs

end Measure

/-- Python exceptions raised by the code or by the libraries it calls. -/
inductive Err where
  | valueError
  | keyError
  | indexError
  | typeError
  | attributeError
  | machineError
  | exit
  | nameError
  | checker
deriving DecidableEq, Repr

end Verif
