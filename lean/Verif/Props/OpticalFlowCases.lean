import Verif.Props.LeastSquares

/-!
# Optical flow: concrete cases

The hypotheses of the theorems on a concrete case, the counterexamples to C52, and properties C63, C64 and C66.
-/

set_option linter.unusedSectionVars false

namespace Verif.Props

open Verif Verif.ImgTools Verif.Disparity Verif.OpticalFlow Verif.Spec

variable {K : Type} [Field K] [LinearOrder K] [IsStrictOrderedRing K] [FloorRing K]
variable {e : Ext K} {junk : Nat → Nat → Win K} {cfg : Cfg} {cv : CostCoords} {invalid : F K}
variable {rowMap colMap : Arr2 (F K)} {left right : Img K} {rowDisp colDisp : MinMax} {r0 c0 : Int}
variable {oc orr : Arr2 (F K)}

/-! ## A concrete pair -/

/-- Image 5 × 5 given by a function of the pixel. -/
def img5 (f : Nat → Nat → Rat) : Img Rat := ⟨5, 5, 0, 0, fun r c => .fin (f r c), none, .fin (-9999), 0, 1⟩

/-- Constant map 5 × 5. -/
def map5 (x : F Rat) : Arr2 (F Rat) := ⟨5, 5, fun _ _ => x⟩

/-- Constant range on a 5 × 5 image. -/
def range5 (lo hi : Int) : MinMax := ⟨⟨5, 5, fun _ _ => lo⟩, ⟨5, 5, fun _ _ => hi⟩, (lo, hi)⟩

def cv5 : CostCoords := ⟨⟨5, fun k => k⟩, ⟨5, fun k => k⟩, 1, 1, 1⟩

/-- A solver meeting the contract; the resampling leaves the windows as they are. -/
def ext5 : Ext Rat := ⟨exLstsq, fun w _ _ => w⟩

def junk5 : Nat → Nat → Win Rat := fun _ _ => ⟨3, 3, fun _ _ => .fin 77⟩

theorem setting5 (rowMap colMap : F Rat) (f : Nat → Nat → Rat) (n : Nat) :
    FlowSetting ⟨3, n⟩ cv5 (map5 rowMap) (map5 colMap) (img5 f) (img5 f).row0 (img5 f).col0 where
  rowReg := ⟨le_rfl, fun k _ => by simp [cv5, img5]⟩
  colReg := ⟨le_rfl, fun k _ => by simp [cv5, img5]⟩
  window := rfl
  offset := le_rfl
  rowIn := fun k hk => by simp only [cv5, img5] at *; omega
  colIn := fun k hk => by simp only [cv5, img5] at *; omega
  rowMap := ⟨rfl, rfl⟩
  colMap := ⟨rfl, rfl⟩

/-- The value of the two maps (row, column) at a pixel. -/
def cellOf (x : Except Err (Arr2 (F Rat) × Arr2 (F Rat))) (r c : Nat) : Option (F Rat × F Rat) :=
  match x with
  | .ok o => some (o.2.get r c, o.1.get r c)
  | .error _ => none

theorem cellOf_some {x : Except Err (Arr2 (F Rat) × Arr2 (F Rat))} {r c : Nat} {a b : F Rat}
    (h : cellOf x r c = some (a, b)) : ∃ o, x = .ok o ∧ o.2.get r c = a ∧ o.1.get r c = b := by
  unfold cellOf at h
  cases x with
  | error y => simp at h
  | ok o =>
    simp only [Option.some.injEq, Prod.mk.injEq] at h
    exact ⟨o, rfl, h.1, h.2⟩

/-- Run of the method on 5 × 5 images, window 3. -/
def run5 (n : Nat) (invalid dr dc : F Rat) (l r : Nat → Nat → Rat) (rowRange colRange : Int × Int) :
    Except Err (Arr2 (F Rat) × Arr2 (F Rat)) :=
  refinementMethod ext5 junk5 ⟨3, n⟩ cv5 invalid (map5 dr) (map5 dc) (img5 l) (img5 r)
    (range5 rowRange.1 rowRange.2) (range5 colRange.1 colRange.2)

/-- A curved surface. -/
def surf (r c : Nat) : Rat := (r * r : Nat) + 3 * (c : Rat) + (r * c : Nat)

/-- Non-vacuity of C50, C51, C52: a run which moves the centre pixel and keeps it in its range, the border being invalid. -/
example : cellOf (run5 1 (.fin (-9999)) (.fin 0) (.fin 0) surf (fun r c => surf r c + 1 / 2) (-2, 2) (-2, 2)) 2 2 ≠ none ∧
    cellOf (run5 1 (.fin (-9999)) (.fin 0) (.fin 0) surf (fun r c => surf r c + 1 / 2) (-2, 2) (-2, 2)) 2 2 ≠
      some (.fin (-9999), .fin (-9999)) ∧
    cellOf (run5 1 (.fin (-9999)) (.fin 0) (.fin 0) surf (fun r c => surf r c + 1 / 2) (-2, 2) (-2, 2)) 0 2 =
      some (.fin (-9999), .fin (-9999)) := by
  decide +kernel

/-- Non-vacuity of C50_small_raises: two rows, window 3. -/
def cv2 : CostCoords := ⟨⟨2, fun k => k⟩, ⟨5, fun k => k⟩, 1, 1, 1⟩

example : FlowSetting ⟨3, 1⟩ cv2 (⟨2, 5, fun _ _ => .fin 0⟩ : Arr2 (F Rat)) ⟨2, 5, fun _ _ => .fin 0⟩
    { img5 surf with h := 2 } 0 0 ∧ ¬ ∃ k, InnerIdx cv2.row cv2.offset k := by
  refine ⟨⟨⟨le_rfl, fun k _ => by simp [cv2]⟩, ⟨le_rfl, fun k _ => by simp [cv2]⟩, rfl, le_rfl, ?_, ?_, ⟨rfl, rfl⟩,
    ⟨rfl, rfl⟩⟩, ?_⟩
  · intro k hk; simp only [cv2, img5] at *; omega
  · intro k hk; simp only [cv2, img5] at *; omega
  · rintro ⟨k, hk, h1, h2⟩
    simp only [cv2] at *
    omega

/-- Non-vacuity of C65: the plane `2 + row + 3 col` displaced by a tenth of its gradient, in windows 3 × 3. -/
example : lucasKanade ext5 (.fin (-9999)) ⟨3, 3, fun i j => .fin (2 + 1 * (i : Rat) + 3 * (j : Rat))⟩
    ⟨3, 3, fun i j => .fin (2 + 1 * ((i : Rat) + 1 / 10 * 1) + 3 * ((j : Rat) + 1 / 10 * 3))⟩ =
    (.fin (1 / 10 * 1), .fin (1 / 10 * 3)) :=
  C65_plane (exLstsq_contract _) (by decide) (by decide) 2 1 3 (1 / 10) (fun _ _ _ _ => rfl) (fun _ _ _ _ => rfl)

/-! ## C52: counterexamples -/

/-- The end of C52 is false: a pixel can be invalid in one map only. Here the match is perfect, its row disparity is the end of the
range: it is replaced by the invalid value although the window did not move, and the column disparity is kept. -/
theorem C52_one_map_only : ∃ o,
    run5 1 (.fin (-9999)) (.fin 1) (.fin 0) surf (fun r c => surf (r - 1) c) (-1, 1) (-1, 1) = .ok o ∧
    o.2.get 2 2 = .fin (-9999) ∧ o.1.get 2 2 = .fin 0 :=
  cellOf_some (by decide +kernel)

/-- When the window leaves the right image the solver may give NaN (no LinAlgError: the matrix is finite, only the right-hand side is
NaN); the refined disparity is then NaN in both maps, neither inside the range nor the invalid value. -/
theorem C52_nan_kept : ∃ o,
    run5 1 (.fin (-9999)) (.fin 1) (.fin 2) surf (fun r c => surf (r - 1) c) (-2, 2) (-3, 3) = .ok o ∧
    o.2.get 2 2 = .nan ∧ o.1.get 2 2 = .nan :=
  cellOf_some (by decide +kernel)

/-- Coordinates starting at row 1 with a step of 2 in an image of 6 rows, as with a region of interest whose margin is odd. -/
def cv6 : CostCoords := ⟨⟨3, fun k => 1 + 2 * k⟩, ⟨5, fun k => k⟩, 1, 2, 1⟩

/-- Row range of the rows: `[-5, 5]` for the even rows, `[-1, 1]` for the odd ones. -/
def range6 : MinMax := ⟨⟨6, 5, fun r _ => if r % 2 = 0 then -5 else -1⟩, ⟨6, 5, fun r _ => if r % 2 = 0 then 5 else 1⟩, (-5, 5)⟩

def img6 (f : Nat → Nat → Rat) : Img Rat := ⟨6, 5, 0, 0, fun r c => .fin (f r c), none, .fin (-9999), 0, 1⟩

def run6 : Except Err (Arr2 (F Rat) × Arr2 (F Rat)) :=
  refinementMethod ext5 junk5 ⟨3, 1⟩ cv6 (.fin (-9999)) ⟨3, 5, fun _ _ => .fin 1⟩ ⟨3, 5, fun _ _ => .fin 0⟩
    (img6 fun r _ => r) (img6 fun r _ => (r : Rat) - 3 / 2) range6 ⟨⟨6, 5, fun _ _ => -2⟩, ⟨6, 5, fun _ _ => 2⟩, (-2, 2)⟩

/-- Without the hypothesis on the first coordinate, C52 is false for the own range of the pixel: the grids are read from their first
row whatever the first coordinate. The pixel of row 3 has the range `[-1, 1]`, its initial disparity is inside, the refined one is
`3/2`. -/
theorem C52_other_range :
    FlowSetting ⟨3, 1⟩ cv6 (⟨3, 5, fun _ _ => .fin 1⟩ : Arr2 (F Rat)) ⟨3, 5, fun _ _ => .fin 0⟩ (img6 fun r _ => r) 1 0 ∧
    cv6.row.get 1 = 3 ∧ range6.lo.get 3 2 = -1 ∧ range6.hi.get 3 2 = 1 ∧
    ∃ o, run6 = .ok o ∧ o.2.get 1 2 = .fin (3 / 2) ∧ o.1.get 1 2 = .fin 0 := by
  refine ⟨⟨⟨by decide, fun k _ => ?_⟩, ⟨le_rfl, fun k _ => by simp [cv6]⟩, rfl, le_rfl, ?_, ?_, ⟨rfl, rfl⟩, ⟨rfl, rfl⟩⟩,
    by decide, by decide, by decide, cellOf_some (by decide +kernel)⟩
  · simp only [cv6]; push_cast; ring
  · intro k hk; simp only [cv6, img6] at *; omega
  · intro k hk; simp only [cv6, img6] at *; omega

/-- The conclusion of C52 for the pixel of the previous theorem fails. -/
theorem C52_other_range_fails :
    ¬ ((.fin (3 / 2) : F Rat) = .nan ∨ (.fin (3 / 2) : F Rat) = .fin (-9999) ∨
      StrictlyInside (range6.lo.get 3 2) (range6.hi.get 3 2) (.fin (3 / 2) : F Rat)) := by
  rintro (h | h | ⟨k, hk, -, h2⟩)
  · simp at h
  · have := F.fin.inj h; norm_num at this
  · have := F.fin.inj hk
    subst this
    simp only [range6] at h2
    norm_num at h2

/-! ## C63: the refined disparity is relative to the window which was compared -/

theorem intPart_int (n s : Int) (h : IntPart (n : K) s) : s = n := by
  obtain ⟨h1, h2, h3⟩ := h
  have a1 : |s| ≤ |n| := by exact_mod_cast h1
  have a2 : |n| < |s| + 1 := by exact_mod_cast h2
  have a3 : 0 ≤ s * n := by exact_mod_cast h3
  have e : |s| = |n| := by omega
  rcases abs_eq_abs.1 e with h | h
  · exact h
  · subst h
    have : n * n ≤ 0 := by linarith
    have : n = 0 := mul_self_eq_zero.1 (le_antisymm this (mul_self_nonneg n))
    omega

/-- The resampling by a zero shift gives the same cells. -/
def ZeroShift (e : Ext K) : Prop :=
  ∀ (w : Win K) (v : Nat → Nat → K) (m n : Nat), FiniteWin ⟨m, n, w.get⟩ v →
    FiniteWin ⟨m, n, (e.warp w (.fin 0) (.fin 0)).get⟩ v

theorem trajectory_fixed (he : LeastSquares e) (hz : ZeroShift e) {l w : Win K} {v : Nat → Nat → K}
    (hl : FiniteWin l v) (h1 : 2 ≤ l.h) (h2 : 2 ≤ l.w) (hw : FiniteWin ⟨l.h, l.w, w.get⟩ v) (n : Nat) (d : F K × F K) :
    trajectory (lucasKanade e invalid) e.warp l n w d = d := by
  induction n generalizing w d with
  | zero => rfl
  | succ n ih =>
    unfold trajectory
    simp only
    rw [C65_identical he hl hw h1 h2]
    have : F.lt (fabs (.fin (0 : K))) (.fin 1) = true := by simp [fabs, F.lt]
    simp only [this, and_self, if_true, fsub_zero]
    rw [ih (hz _ _ _ _ hw)]

/-- C63 for integer disparities (no subpixel matching cost): when the left window and the window of the right image at the initial
disparity have the same cells, and this disparity is strictly inside the ranges, the refinement leaves it unchanged. -/
theorem C63_exact_match_partial (he : LeastSquares e) (hz : ZeroShift e)
    (S : FlowSetting cfg cv rowMap colMap left r0 c0)
    (h : refinementMethod e junk cfg cv invalid rowMap colMap left right rowDisp colDisp = .ok (oc, orr))
    (r c : Nat) (hr : InnerIdx cv.row cv.offset r) (hc : InnerIdx cv.col cv.offset c) (dr dc : Int)
    (er : rowMap.get r c = .fin (dr : K)) (ec : colMap.get r c = .fin (dc : K))
    (nr : invalid ≠ .fin (dr : K)) (nc : invalid ≠ .fin (dc : K))
    (hfl : ∀ i < 2 * cv.offset + 1, ∀ j < 2 * cv.offset + 1, ∃ v,
      (windowOf left cv.offset (cv.row.get r) (cv.col.get c)).get i j = .fin v ∧
      (rightWindow right cv.offset (cv.row.get r + dr) (cv.col.get c + dc)).get i j = .fin v)
    (gr : rowDisp.lo.get (r * cv.stepRow) (c * cv.stepCol) < dr ∧ dr < rowDisp.hi.get (r * cv.stepRow) (c * cv.stepCol))
    (gc : colDisp.lo.get (r * cv.stepRow) (c * cv.stepCol) < dc ∧ dc < colDisp.hi.get (r * cv.stepRow) (c * cv.stepCol)) :
    orr.get r c = .fin (dr : K) ∧ oc.get r c = .fin (dc : K) := by
  obtain ⟨-, hp⟩ := C50_aligned S h
  obtain ⟨sr, sc, s1, s2, t1, t2⟩ := (hp r c (by rw [S.rowMap.1]; exact hr.1) (by rw [S.rowMap.2]; exact hc.1)).1 ⟨hr, hc⟩
  have start : ∀ {d s : Int} {x : F K}, x = .fin (d : K) → invalid ≠ .fin (d : K) → StartShift invalid x s → s = d := by
    intro d s x hx hn hs
    rcases hs with ⟨-, hs | hs⟩ | ⟨y, hy, -, hi⟩
    · rw [hx] at hs; simp at hs
    · rw [hx] at hs; exact absurd hs.symm hn
    · rw [hx] at hy
      obtain rfl := F.fin.inj hy
      exact intPart_int d s hi
  obtain rfl := start er nr s1
  obtain rfl := start ec nc s2
  choose v hv using hfl
  set L := windowOf left cv.offset (cv.row.get r) (cv.col.get c) with hL
  set R := rightWindow right cv.offset (cv.row.get r + sr) (cv.col.get c + sc) with hR
  let v' : Nat → Nat → K := fun i j => if hi : i < 2 * cv.offset + 1 then
    if hj : j < 2 * cv.offset + 1 then v i hi j hj else 0 else 0
  have fl : FiniteWin L v' := by
    intro i hi j hj
    have hi' : i < 2 * cv.offset + 1 := hi
    have hj' : j < 2 * cv.offset + 1 := hj
    simp only [v', hi', hj', dif_pos]
    exact (hv i hi' j hj').1
  have fr : FiniteWin ⟨L.h, L.w, R.get⟩ v' := by
    intro i hi j hj
    have hi' : i < 2 * cv.offset + 1 := hi
    have hj' : j < 2 * cv.offset + 1 := hj
    simp only [v', hi', hj', dif_pos]
    exact (hv i hi' j hj').2
  have off := S.offset
  have hh : 2 ≤ L.h := by show 2 ≤ 2 * cv.offset + 1; omega
  have hw : 2 ≤ L.w := by show 2 ≤ 2 * cv.offset + 1; omega
  have ht := trajectory_fixed (invalid := invalid) he hz fl hh hw fr cfg.iterations (rowMap.get r c, colMap.get r c)
  rw [ht] at t1 t2
  have ins : ∀ (lo hi d : Int), lo < d → d < hi → insideOr invalid lo hi (.fin (d : K)) = .fin (d : K) := by
    intro lo hi d h1 h2
    unfold insideOr
    rw [if_neg]
    have a1 : (lo : K) < d := by exact_mod_cast h1
    have a2 : (d : K) < hi := by exact_mod_cast h2
    simp only [F.le, decide_eq_true_eq, not_or, not_le]
    exact ⟨a1, a2⟩
  constructor
  · rw [t1, er, ins _ _ _ gr.1 gr.2]
  · rw [t2, ec, ins _ _ _ gc.1 gc.2]

/-- C63 is false for the disparities of a subpixel matching cost: the window of the right image is taken at the integer part of the
disparity while the motion is subtracted from the disparity itself. The two images are equal, the windows compared are the same
one (displacement 0), and the refined disparity is `1/2`. -/
theorem C63_subpixel_biased :
    (∀ i < 3, ∀ j < 3, (windowOf (img5 surf) 1 2 2).get i j = (rightWindow (img5 surf) 1 (2 + 0) (2 + 0)).get i j) ∧
    StartShift (.fin (-9999)) (.fin (1 / 2) : F Rat) 0 ∧
    ∃ o, run5 3 (.fin (-9999)) (.fin (1 / 2)) (.fin 0) surf surf (-2, 2) (-2, 2) = .ok o ∧
      o.2.get 2 2 = .fin (1 / 2) ∧ o.1.get 2 2 = .fin 0 := by
  refine ⟨by decide +kernel, .inr ⟨1 / 2, rfl, ?_, ?_⟩, cellOf_some (by decide +kernel)⟩
  · intro h; have := F.fin.inj h; norm_num at this
  · unfold IntPart; norm_num [abs_of_pos]

/-- Non-vacuity of C63: the same images with the initial disparity 0, three iterations. -/
example : cellOf (run5 3 (.fin (-9999)) (.fin 0) (.fin 0) surf surf (-2, 2) (-2, 2)) 2 2 = some (.fin 0, .fin 0) := by
  decide +kernel

example : LeastSquares ext5 ∧ ZeroShift ext5 := ⟨exLstsq_contract _, fun _ _ _ _ h => h⟩

/-! ## C64: invalid pixels stay invalid -/

/-- The invalid value stays out of the range even after the motions. -/
def FarFrom (n : Nat) (lo hi : Int) (v : K) : Prop := v + n ≤ lo ∨ (hi : K) ≤ v - n

theorem insideOr_far {n : Nat} {lo hi : Int} {v : K} {x : F K} (hf : FarFrom n lo hi v)
    (hx : ∃ k, x = .fin k ∧ |k - v| ≤ n) : insideOr invalid lo hi x = invalid := by
  obtain ⟨k, rfl, hk⟩ := hx
  rw [abs_le] at hk
  unfold insideOr
  rw [if_pos]
  simp only [F.le, decide_eq_true_eq]
  rcases hf with hf | hf
  · left; linarith
  · right; linarith

/-- C64 when the invalid value is NaN, or farther from the range than the number of iterations (and the solver gives no NaN): a pixel
which is invalid before the refinement is invalid after. -/
theorem C64_invalid_kept_partial (S : FlowSetting cfg cv rowMap colMap left r0 c0)
    (h : refinementMethod e junk cfg cv invalid rowMap colMap left right rowDisp colDisp = .ok (oc, orr))
    (r c : Nat) (hr : r < rowMap.h) (hc : c < rowMap.w)
    (er : rowMap.get r c = invalid) (ec : colMap.get r c = invalid)
    (hi : invalid = .nan ∨ NoNaN e ∧ ∃ v, invalid = .fin v ∧
      FarFrom cfg.iterations (rowDisp.lo.get (r * cv.stepRow) (c * cv.stepCol))
        (rowDisp.hi.get (r * cv.stepRow) (c * cv.stepCol)) v ∧
      FarFrom cfg.iterations (colDisp.lo.get (r * cv.stepRow) (c * cv.stepCol))
        (colDisp.hi.get (r * cv.stepRow) (c * cv.stepCol)) v) :
    orr.get r c = invalid ∧ oc.get r c = invalid := by
  obtain ⟨-, hp⟩ := C50_aligned S h
  obtain ⟨h1, h2⟩ := hp r c hr hc
  by_cases hin : InnerIdx cv.row cv.offset r ∧ InnerIdx cv.col cv.offset c
  · obtain ⟨sr, sc, -, -, t1, t2⟩ := h1 hin
    rw [er, ec] at t1 t2
    rcases hi with hi | ⟨he, v, hv, f1, f2⟩
    · obtain ⟨n1, n2⟩ := trajectory_nan (lucasKanade e invalid) e.warp
        (windowOf left cv.offset (cv.row.get r) (cv.col.get c)) cfg.iterations
        (rightWindow right cv.offset (cv.row.get r + sr) (cv.col.get c + sc)) (invalid, invalid)
      rw [n1 hi] at t1
      rw [n2 hi] at t2
      rw [t1, t2, hi]
      simp [insideOr, F.le]
    · have hn : invalid ≠ .nan := by rw [hv]; simp
      obtain ⟨k1, k2, hk⟩ := trajectory_fin (fun l w => lk_not_nan he hn l w) e.warp
        (windowOf left cv.offset (cv.row.get r) (cv.col.get c)) cfg.iterations
        (rightWindow right cv.offset (cv.row.get r + sr) (cv.col.get c + sc)) v v
      obtain ⟨b1, b2⟩ := C51_trajectory (lucasKanade e invalid) e.warp
        (windowOf left cv.offset (cv.row.get r) (cv.col.get c)) cfg.iterations
        (rightWindow right cv.offset (cv.row.get r + sr) (cv.col.get c + sc)) v v
      have e2 : ((invalid, invalid) : F K × F K) = (.fin v, .fin v) := by rw [hv]
      rw [e2] at t1 t2
      rw [hk] at b1 b2
      rw [hk] at t1 t2
      have c1 : ∃ k, (.fin k1 : F K) = .fin k ∧ |k - v| ≤ cfg.iterations := b1.resolve_left (by simp)
      have c2 : ∃ k, (.fin k2 : F K) = .fin k ∧ |k - v| ≤ cfg.iterations := b2.resolve_left (by simp)
      rw [t1, t2]
      exact ⟨insideOr_far f1 c1, insideOr_far f2 c2⟩
  · exact ⟨(h2 hin).2, (h2 hin).1⟩

/-- C64 is false when the invalid value is inside the range: the pixel is matched at the shift 0 and gets a disparity. -/
theorem C64_invalid_refined : ∃ o,
    run5 1 (.fin 1) (.fin 1) (.fin 1) (fun _ c => c) (fun _ c => c + 1 / 2) (-2, 2) (-3, 3) = .ok o ∧
    o.2.get 2 2 = .fin 1 ∧ o.1.get 2 2 = .fin (1 / 2) :=
  cellOf_some (by decide +kernel)

/-- Non-vacuity of C64. -/
example : cellOf (run5 1 (.fin (-9999)) (.fin (-9999)) (.fin (-9999)) (fun _ c => c) (fun _ c => c + 1 / 2) (-2, 2) (-3, 3)) 2 2 =
    some (.fin (-9999), .fin (-9999)) := by decide +kernel

example : FarFrom 4 (-2) 2 (-9999 : Rat) := by left; norm_num

/-! ## C66: the margins of the optical flow -/

/-- The margins on the columns follow the column step and those on the rows the row step. -/
def MarginsFollowSteps (m : Disparity.Margins) (half stepRow stepCol : Nat) : Prop :=
  m.left = half * stepCol ∧ m.right = half * stepCol ∧ m.up = half * stepRow ∧ m.down = half * stepRow

/-- C66 holds exactly when the two steps are equal: the row and the column steps are exchanged. -/
theorem C66_margins_partial (ws stepRow stepCol : Nat) (hw : 2 ≤ ws) :
    MarginsFollowSteps (margins ws stepRow stepCol) (ws / 2) stepRow stepCol ↔ stepRow = stepCol := by
  unfold MarginsFollowSteps margins
  have hp : 0 < ws / 2 := by omega
  constructor
  · rintro ⟨h, -⟩
    exact Nat.eq_of_mul_eq_mul_left hp h
  · rintro rfl
    exact ⟨rfl, rfl, rfl, rfl⟩

theorem C66_swapped : ¬ ∀ ws stepRow stepCol, 2 ≤ ws →
    MarginsFollowSteps (margins ws stepRow stepCol) (ws / 2) stepRow stepCol := by
  intro h
  have := (C66_margins_partial 5 2 1 (by omega)).1 (h 5 2 1 (by omega))
  omega

end Verif.Props
