import Verif.Model.Save

/-!
# Specifications for the georeferencing of the results
-/

namespace Verif.Spec

open Verif Verif.Save

variable {K : Type} [Field K]

/-- Ground location of the image point of abscissa `x` (column) and ordinate `y` (row). -/
def ground (t : Affine K) (x y : K) : K × K := (t.a * x + t.b * y + t.c, t.d * x + t.e * y + t.f)

/-- The transform `out` locates each point of the output pixel `(i, j)` (`0 ≤ u, v ≤ 1` covers the pixel, `u = v = 0` is its
corner) at the ground location of the input image point at column `x + u * stepCol`, row `y + v * stepRow`. -/
def Locates (out inp : Affine K) (i j : Nat) (y x : Int) (stepRow stepCol : Nat) : Prop :=
  ∀ u v : K, ground out ((j : K) + u) ((i : K) + v) = ground inp ((x : K) + u * stepCol) ((y : K) + v * stepRow)

end Verif.Spec
