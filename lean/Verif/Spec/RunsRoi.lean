import Verif.Spec.RunsExactly

/-!
# Specification of the accepted configurations with a ROI which run to the end
-/

namespace Verif.Spec

open Verif Verif.Config Verif.ImgTools Verif.Main

/-- `lo` and `hi` are the smallest and the greatest disparities asked for some pixel of the image. -/
structure HullIs (d : Disp) (lo hi : Int) : Prop where
  least : InDispRange d lo
  low : ∀ δ, InDispRange d δ → lo ≤ δ
  greatest : InDispRange d hi
  high : ∀ δ, InDispRange d δ → δ ≤ hi

/-- The pixel `x` of an axis of `n` pixels is at most `max |lo| before` before the first pixel of the ROI and at most `max |hi| after` after its
last pixel. -/
def NearRoi (n : Nat) (first last lo hi before after x : Int) : Prop :=
  0 ≤ x ∧ x < n ∧ first - max |lo| before ≤ x ∧ x ≤ last + max |hi| after

/-- The initial disparity is the same for all the pixels of the rows and columns given. -/
def FlatOn (d : Disp) (rows cols : Int → Prop) : Prop :=
  ∀ r c r' c', rows r → cols c → rows r' → cols c' → initAt d r c = initAt d r' c'

/-- What an optical flow with a window of half size `half` needs on an axis, where the pixels read are given by `near` and the points of the maps are
those at a multiple of `step` from the first pixel of the ROI. Some point has others on each side, at least `half` away. When the pixels read
are cut in groups of `step` from the first one, each group holds a point, the last group too. -/
def FlowAxis (near : Int → Prop) (first : Int) (step half : Nat) : Prop :=
  (∃ x, (x - first) % step = 0 ∧ near x ∧ (∃ k : Nat, half ≤ k * step ∧ near (x - (k : Int) * step)) ∧
      ∃ k : Nat, half ≤ k * step ∧ near (x + (k : Int) * step)) ∧
    ∀ a, near a → (∀ x, near x → a ≤ x) → ∀ k : Nat, near (a + (k : Int) * step) →
      ∃ y, near y ∧ (y - first) % step = 0 ∧ a + (k : Int) * step ≤ y ∧ y < a + (k : Int) * step + step

end Verif.Spec
