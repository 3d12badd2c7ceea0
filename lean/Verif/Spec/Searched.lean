import Verif.Spec.InterpMain
import Mathlib.Algebra.BigOperators.Group.Finset.Basic
import Mathlib.Analysis.SpecialFunctions.Trigonometric.Basic

/-!
# Specification of the search of a dichotomy, on the costs of one pixel
-/

namespace Verif.Spec

open Verif Verif.Config Verif.ImgTools Verif.Disparity Verif.Main

variable {K : Type} [Field K] [LinearOrder K]

/-! ## Interpolation of sampled values -/

/-- The number held by a value, when it holds one. -/
def amount : F K → K
  | .fin v => v
  | _ => 0

/-- A kernel which interpolates samples along one axis: the number of samples read, how many of them come before the one below the position,
and the weight of each of them according to the fraction of the position. -/
structure Kernel (K : Type) where
  size : Nat
  before : Nat
  weight : K → Nat → K

/-- The cubic convolution of Keys of parameter -1/2. -/
def keys (d : K) : K :=
  if |d| ≤ 1 then 3 / 2 * |d| ^ 3 - 5 / 2 * |d| ^ 2 + 1
  else if |d| ≤ 2 then -(1 / 2) * |d| ^ 3 + 5 / 2 * |d| ^ 2 - 4 * |d| + 2
  else 0

/-- Its kernel: four samples, at -1, 0, 1 and 2. -/
def keysKernel : Kernel K := ⟨4, 1, fun t a => keys (t - ((a : K) - 1))⟩

/-- The cardinal sine under a Gaussian of parameter `n`. -/
noncomputable def gaussSinc (n : Nat) (d : ℝ) : ℝ :=
  (if d = 0 then 1 else Real.sin (Real.pi * d) / (Real.pi * d)) * Real.exp (-2 * Real.pi * d ^ 2 / n ^ 2)

/-- Its kernel: `2 n + 1` samples around the position, the weights are divided by their sum. -/
noncomputable def sincKernel (n : Nat) : Kernel ℝ :=
  ⟨2 * n + 1, n, fun t a => gaussSinc n (t - ((a : ℝ) - n)) / ∑ b ∈ Finset.range (2 * n + 1), gaussSinc n (t - ((b : ℝ) - n))⟩

section
variable [IsStrictOrderedRing K] [FloorRing K]

/-- The sample of rank `a` among those read to interpolate at `x`; the samples are at the multiples of `1 / n`. -/
def node (g : Kernel K) (n : Nat) (x : K) (a : Nat) : K := ((⌊x * n⌋ - g.before + a : Int) : K) / n

open Classical in
/-- The value interpolated at `(x, y)`: NaN when one of the samples is NaN, and their weighted sum otherwise. -/
noncomputable def filtered (g : Kernel K) (n : Nat) (cost : K → K → F K) (x y : K) : F K :=
  if ∃ a < g.size, ∃ b < g.size, cost (node g n x a) (node g n y b) = .nan then .nan
  else .fin (∑ a ∈ Finset.range g.size, ∑ b ∈ Finset.range g.size,
    g.weight (Int.fract (x * n)) a * g.weight (Int.fract (y * n)) b *
      amount (cost (node g n x a) (node g n y b)))

end

/-! ## The search -/

/-- One of the nine moves by at most one step in each direction. -/
def Around (s : Int × Int) : Prop := (-1 ≤ s.1 ∧ s.1 ≤ 1) ∧ -1 ≤ s.2 ∧ s.2 ≤ 1

/-- The value tried for the move `s` from `(x, y)` with step `h`: the value `v` held there for no move. -/
def tried (val : K → K → F K) (h x y : K) (v : F K) (s : Int × Int) : F K :=
  if s = (0, 0) then v else val (x + s.1 * h) (y + s.2 * h)

/-- The move chosen: its value is not NaN and at least as good as all the values tried. There is no move when the nine values are equal, and
otherwise it is the first of the best ones, by rows then by columns. -/
structure BestMove (me : Measure) (val : K → K → F K) (h x y : K) (v : F K) (s : Int × Int) : Prop where
  around : Around s
  number : tried val h x y v s ≠ .nan
  best : ∀ t, Around t → tried val h x y v t ≠ .nan → AtLeastAsGood me (tried val h x y v s) (tried val h x y v t)
  flat : (∀ t, Around t → tried val h x y v t = v) → s = (0, 0)
  first : (∃ t, Around t ∧ tried val h x y v t ≠ v) →
    ∀ t, Around t → tried val h x y v t = tried val h x y v s → s.1 < t.1 ∨ (s.1 = t.1 ∧ s.2 ≤ t.2)

/-- The search from `(x, y)`, where the value is `v`, with steps `1 / 2 ^ (k + 1)`, …, `1 / 2 ^ it`, ends at `(x', y')` with the value `v'`. -/
inductive Path (me : Measure) (val : K → K → F K) (it : Nat) : Nat → K → K → F K → K → K → F K → Prop
  | stop {k : Nat} {x y : K} {v : F K} (h : it ≤ k) : Path me val it k x y v x y v
  | move {k : Nat} {x y : K} {v : F K} {s : Int × Int} {x' y' : K} {v' : F K} (h : k < it)
      (hs : BestMove me val (1 / 2 ^ (k + 1)) x y v s)
      (hp : Path me val it (k + 1) (x + s.1 * (1 / 2 ^ (k + 1))) (y + s.2 * (1 / 2 ^ (k + 1))) (tried val (1 / 2 ^ (k + 1)) x y v s) x' y' v') :
      Path me val it k x y v x' y' v'

/-- The two disparities and the score of a pixel after a dichotomy from `row0` and `col0`, when the intervals are `[lor, hir]` and `[loc, hic]`,
the costs read are `cost` and the values of the filter are `val`. The disparities are kept when one of them is the invalid value, and the score
is NaN. They are kept, with their cost, when one of them is an end of its interval or when their cost is NaN. Otherwise they are the end of the
search from them. -/
structure SearchedPixel (me : Measure) (cost val : K → K → F K) (k it : Nat) (lor hir loc hic : Int) (invalid row0 col0 row col score : F K) :
    Prop where
  unusable : row0 = invalid ∨ col0 = invalid → row = row0 ∧ col = col0 ∧ score = .nan
  kept : ∀ x y, row0 = .fin x → col0 = .fin y → row0 ≠ invalid → col0 ≠ invalid →
    (AtEnd lor hir row0 ∨ AtEnd loc hic col0) ∨ cost x y = .nan → row = row0 ∧ col = col0 ∧ score = cost x y
  searched : ∀ x y, row0 = .fin x → col0 = .fin y → row0 ≠ invalid → col0 ≠ invalid →
    ¬ (AtEnd lor hir row0 ∨ AtEnd loc hic col0) → cost x y ≠ .nan →
    ∃ x' y' v', row = .fin x' ∧ col = .fin y' ∧ score = v' ∧ Path me val it k x y (cost x y) x' y' v'

open Classical in
/-- The cost read at a pair of disparities for the pixel at row `r` and column `c`: NaN when one of the disparities is in the intervals of other
pixels only. -/
noncomputable def seen (dRow dCol : Disp) (fr lr fc lc r c : Int) (cost : K → K → F K) (x y : K) : F K :=
  if ReadDisp dRow fr lr r c x ∧ ReadDisp dCol fc lc r c y then cost x y else .nan

/-- The filter section of the user: `bicubic`, or `sinc` with a size, six by default. The kernel is the one of Keys for the first. For the second
it gives the coefficients of the filter of the world for the fractions which are multiples of `1 / 2 ^ it`. -/
def KernelIs (w : World K) (f : Fields) (it : Nat) (g : Kernel K) : Prop :=
  ∃ fl, f.get "filter" = some (.obj fl) ∧
    ((fl.get "method" = some (.str "bicubic") ∧ g = keysKernel) ∨
     (fl.get "method" = some (.str "sinc") ∧ ∃ n : Nat, IsInt true ((fl.get "size").getD (.int 6)) (n : Int) ∧
        (g.size = 2 * n + 1 ∧ g.before = n) ∧
        ((w.sinc n (2 ^ it)).size = g.size ∧ (w.sinc n (2 ^ it)).left = n ∧ (w.sinc n (2 ^ it)).up = n) ∧
        ∀ j : Nat, j < 2 ^ it → ∃ a, (w.sinc n (2 ^ it)).coeffs ((j : K) / 2 ^ it) = .ok a ∧ a.n = g.size ∧
          ∀ b < g.size, a.get b = g.weight ((j : K) / 2 ^ it) b))

end Verif.Spec
