import Verif.Spec.Clear
import Verif.Props.Mirror
import Verif.Props.NoDataValue

/-!
# C118: rows and columns exchanged, with fractions of pixels
-/

namespace Verif.Props

open Verif Verif.Config Verif.Machine Verif.ImgTools Verif.MatchingCost Verif.Disparity Verif.Run Verif.Main Verif.Spec Verif.Save
  Verif.Statistics

set_option linter.unusedSectionVars false

variable {K : Type} [Field K] [LinearOrder K] [IsStrictOrderedRing K] [FloorRing K]

/-- The number held by a value. -/
def numberOf : F K → K
  | .fin v => v
  | _ => 0

/-- The linear interpolation of `g` at the position `p`. -/
def lin (g : Nat → K) (p : K) : K := (1 - Int.fract p) * g ⌊p⌋.toNat + Int.fract p * g (⌊p⌋.toNat + 1)

/-- The interpolation along one axis then along the other one does not depend on the order. -/
theorem lin_swap (g : Nat → Nat → K) (p q : K) : lin (fun y => lin (fun x => g x y) p) q = lin (fun x => lin (fun y => g x y) q) p := by
  unfold lin; ring

/-- The interpolation only reads the samples on the two sides of the position. -/
theorem lin_inside {n : Nat} {p : K} (h0 : 0 ≤ p) (h1 : p ≤ ((n - 1 : Nat) : K)) (hn : 0 < n) :
    ⌊p⌋.toNat < n ∧ (Int.fract p ≠ 0 → ⌊p⌋.toNat + 1 < n) ∧ p = ((⌊p⌋.toNat : Nat) : K) + Int.fract p := by
  have hf : 0 ≤ ⌊p⌋ := Int.floor_nonneg.2 h0
  have f0 := Int.fract_nonneg p
  have e : p = ((⌊p⌋.toNat : Nat) : K) + Int.fract p := by
    conv_lhs => rw [← Int.floor_add_fract p]
    congr 1
    have : ((⌊p⌋.toNat : Nat) : Int) = ⌊p⌋ := Int.toNat_of_nonneg hf
    rw [← Int.cast_natCast, this]
  refine ⟨?_, fun hz => ?_, e⟩
  · have : ((⌊p⌋.toNat : Nat) : K) ≤ ((n - 1 : Nat) : K) := by linarith
    have : ⌊p⌋.toNat ≤ n - 1 := by exact_mod_cast this
    omega
  · have hz' : 0 < Int.fract p := lt_of_le_of_ne f0 (Ne.symm hz)
    have : ((⌊p⌋.toNat : Nat) : K) < ((n - 1 : Nat) : K) := by linarith
    have : ⌊p⌋.toNat < n - 1 := by exact_mod_cast this
    omega

theorem lin_congr {n : Nat} {g g' : Nat → K} {p : K} (h0 : 0 ≤ p) (h1 : p ≤ ((n - 1 : Nat) : K)) (hn : 0 < n) (h : ∀ x < n, g x = g' x) :
    lin g p = lin g' p := by
  obtain ⟨a, b, -⟩ := lin_inside h0 h1 hn
  unfold lin
  rw [h _ a]
  by_cases hz : Int.fract p = 0
  · rw [hz, zero_mul, zero_mul]
  · rw [h _ (b hz)]

theorem lin_above {n : Nat} {g : Nat → K} {p nd : K} (h0 : 0 ≤ p) (h1 : p ≤ ((n - 1 : Nat) : K)) (hn : 0 < n) (h : ∀ x < n, nd < g x) :
    nd < lin g p := by
  obtain ⟨a, b, -⟩ := lin_inside h0 h1 hn
  have f0 := Int.fract_nonneg p
  have f1 := Int.fract_lt_one p
  have q1 := h _ a
  unfold lin
  by_cases hz : Int.fract p = 0
  · rw [hz]; simpa using q1
  · have q2 := h _ (b hz)
    have hz' : 0 < Int.fract p := lt_of_le_of_ne f0 (Ne.symm hz)
    nlinarith

section
variable {right D : Img K} {d : K}

/-- The values of a displaced image without no-data. -/
theorem displaced_lin (h : Displaced D right d) (hc : ClearAbove right) {x y : Nat} (hx : x < right.h) (hy : y < right.w) :
    (0 ≤ (x : K) + d ∧ (x : K) + d ≤ ((right.h - 1 : Nat) : K) →
      D.im x y = .fin (lin (fun t => numberOf (right.im t y)) ((x : K) + d)) ∧ Pandora.noDataAt D x y = false) ∧
    (¬ (0 ≤ (x : K) + d ∧ (x : K) + d ≤ ((right.h - 1 : Nat) : K)) → Pandora.noDataAt D x y = true) := by
  obtain ⟨k1, k2⟩ := h.samples x hx y hy
  obtain ⟨nd, n1, n2⟩ := hc
  constructor
  · rintro ⟨h0, h1⟩
    obtain ⟨a, b, e⟩ := lin_inside h0 h1 (by omega)
    have v := k1 _ _ (Int.fract_nonneg _) (Int.fract_lt_one _) e h1
    obtain ⟨v0, w0, -⟩ := n2 _ a y hy
    have hv : D.im x y = .fin (lin (fun t => numberOf (right.im t y)) ((x : K) + d)) := by
      rw [v]
      unfold lerpRow lin
      split_ifs with hz
      · simp only [w0, hz, numberOf, sub_zero, one_mul, zero_mul, add_zero]
      · obtain ⟨v1, w1, -⟩ := n2 _ (b hz) y hy
        simp only [w0, w1, F.mul, F.add, numberOf]
    refine ⟨hv, ?_⟩
    rw [h.flags, hv, n1]
    have := lin_above (g := fun t => numberOf (right.im t y)) (nd := nd) h0 h1 (by omega) fun t ht => by
      obtain ⟨v, e1, e2⟩ := n2 t ht y hy
      simp only [e1, numberOf]; exact e2
    simp only [F.eq, decide_eq_false_iff_not]
    exact this.ne'
  · intro hout
    rw [not_and_or, not_le, not_le] at hout
    rw [h.flags, k2 hout, n1]
    simp [F.eq]

/-- The column `p` of a displaced image without no-data. -/
theorem sample_lin (h : Displaced D right d) (hc : ClearAbove right) {x : Nat} (hx : x < right.h) (h0 : 0 ≤ (x : K) + d)
    (h1 : (x : K) + d ≤ ((right.h - 1 : Nat) : K)) {p : K} (p0 : 0 ≤ p) (p1 : p ≤ ((right.w - 1 : Nat) : K)) (hw : 0 < right.w) :
    Pandora.sampleCol D x p = .fin (lin (fun y => lin (fun t => numberOf (right.im t y)) ((x : K) + d)) p) := by
  obtain ⟨a, b, -⟩ := lin_inside p0 p1 hw
  have v0 := ((displaced_lin h hc hx a).1 ⟨h0, h1⟩).1
  unfold Pandora.sampleCol
  split_ifs with hz
  · rw [v0]
    simp only [lin, hz]
    simp
  · have v1 := ((displaced_lin h hc hx (b hz)).1 ⟨h0, h1⟩).1
    rw [v0, v1]
    simp [F.mul, F.add, lin]

end

section
variable {hw a b H W : Nat} {left right D : Img K} {dr dc : K} {gmin gmax : Arr2 Int}

/-- When two windows can be compared, in images whose right one has no no-data: both are inside, and the left one has no no-data. -/
theorem window_ok_clear (h : Displaced D right dr) (hc : ClearAbove right) (s : (left.h = H ∧ left.w = W) ∧ right.h = H ∧ right.w = W)
    (g : (gmin.get a b : K) ≤ dc ∧ dc ≤ (gmax.get a b : K)) :
    Pandora.windowOk hw left D gmin gmax a b dc ↔
      (hw ≤ a ∧ a + hw < H ∧ hw ≤ b ∧ b + hw < W) ∧ ((hw : K) ≤ (a : K) + dr ∧ (a : K) + dr + hw ≤ ((H - 1 : Nat) : K)) ∧
      ((hw : K) ≤ (b : K) + dc ∧ (b : K) + dc + hw ≤ ((W - 1 : Nat) : K)) ∧
      (∀ x < 2 * hw + 1, ∀ y < 2 * hw + 1, Pandora.noDataAt left (a + x - hw) (b + y - hw) = false) ∧
      Pandora.invalidAt left a b = false := by
  obtain ⟨⟨s1, s2⟩, s3, s4⟩ := s
  have col : b + hw < W → (((hw : Int) ≤ ⌊(b : K) + dc⌋ ∧ ⌈(b : K) + dc⌉ + (hw : Int) < D.w) ↔
      ((hw : K) ≤ (b : K) + dc ∧ (b : K) + dc + hw ≤ ((W - 1 : Nat) : K))) := by
    intro hb
    rw [Int.le_floor, h.size.2, s4]
    refine and_congr (by simp) ?_
    rw [show ⌈(b : K) + dc⌉ + (hw : Int) < (W : Int) ↔ ⌈(b : K) + dc⌉ ≤ ((W - 1 : Nat) : Int) - hw by omega, Int.ceil_le]
    push_cast
    exact ⟨fun q => by linarith, fun q => by linarith⟩
  constructor
  · rintro ⟨⟨b1, b2, b3, b4⟩, b5, -, c1, c2, c3, -⟩
    rw [s1] at b2
    rw [s2] at b4
    have b6 := (col b4).1 b5
    obtain ⟨b7, b8⟩ := b5
    rw [h.size.2, s4] at b8
    have hfc := Int.floor_le_ceil ((b : K) + dc)
    obtain ⟨q, hq⟩ := Int.eq_ofNat_of_zero_le (show 0 ≤ ⌊(b : K) + dc⌋ by omega)
    have row : ∀ x < 2 * hw + 1, 0 ≤ ((a + x - hw : Nat) : K) + dr ∧ ((a + x - hw : Nat) : K) + dr ≤ ((right.h - 1 : Nat) : K) := by
      intro x hx
      by_contra hout
      have := (displaced_lin h hc (x := a + x - hw) (y := q) (by omega) (by omega)).2 hout
      rw [c2 x hx q (by omega) (by omega)] at this
      simp at this
    have r0 := (row 0 (by omega)).1
    have r1 := (row (2 * hw) (by omega)).2
    rw [s3] at r1
    rw [show a + 0 - hw = a - hw by omega, Nat.cast_sub b1] at r0
    rw [show a + 2 * hw - hw = a + hw by omega] at r1
    push_cast at r1
    exact ⟨⟨b1, b2, b3, b4⟩, ⟨by linarith, by linarith⟩, b6, c1, c3⟩
  · rintro ⟨⟨b1, b2, b3, b4⟩, ⟨r0, r1⟩, b6, c1, c3⟩
    have b5 := (col b4).2 b6
    refine ⟨⟨b1, by omega, b3, by omega⟩, b5, g, c1, ?_, c3, h.valid _ _, h.valid _ _⟩
    intro x hx y y1 y2
    obtain ⟨b7, b8⟩ := b5
    rw [h.size.2, s4] at b8
    have hfc := Int.floor_le_ceil ((b : K) + dc)
    refine ((displaced_lin h hc (x := a + x - hw) (y := y) (by omega) (by omega)).1 ?_).2
    rw [s3, Nat.cast_sub (by omega)]
    push_cast
    have hx0 : (0 : K) ≤ (x : K) := Nat.cast_nonneg x
    have hx1 : (x : K) ≤ 2 * (hw : K) := by
      have : x ≤ 2 * hw := by omega
      exact_mod_cast this
    exact ⟨by linarith, by linarith⟩

end

section
variable {hw a b H W : Nat} {left right left' right' D D' : Img K} {dr dc : K} {gmin gmax gmin' gmax' : Arr2 Int}

theorem clear_transposed (hr : Transposed right right') (s : right'.h = right.w ∧ right'.w = right.h) (hc : ClearAbove right) :
    ClearAbove right' := by
  obtain ⟨nd, n1, n2⟩ := hc
  refine ⟨nd, by rw [hr.noData, n1], fun x hx y hy => ?_⟩
  rw [hr.values y (by omega) x (by omega)]
  exact n2 y (by omega) x (by omega)

/-- The cost of two windows of the transposed images. -/
theorem window_transposed {ker : List (F K × F K) → F K} (hk : OrderFree ker) (h : Displaced D right dr) (h' : Displaced D' right' dc)
    (hl : Transposed left left') (hr : Transposed right right') (hc : ClearAbove right)
    (s : (left.h = H ∧ left.w = W) ∧ right.h = H ∧ right.w = W) (s' : (left'.h = W ∧ left'.w = H) ∧ right'.h = W ∧ right'.w = H)
    (g : (gmin.get a b : K) ≤ dc ∧ dc ≤ (gmax.get a b : K)) (g' : (gmin'.get b a : K) ≤ dr ∧ dr ≤ (gmax'.get b a : K)) :
    Pandora.windowCost hw ker left' D' gmin' gmax' b a dr = Pandora.windowCost hw ker left D gmin gmax a b dc := by
  have hc' := clear_transposed hr (by omega) hc
  have e1 := window_ok_clear (hw := hw) (gmin := gmin) (gmax := gmax) h hc s g
  have e2 := window_ok_clear (hw := hw) (gmin := gmin') (gmax := gmax') h' hc' s' g'
  have key : Pandora.windowOk hw left' D' gmin' gmax' b a dr ↔ Pandora.windowOk hw left D gmin gmax a b dc := by
    rw [e1, e2]
    constructor
    · rintro ⟨⟨b1, b2, b3, b4⟩, r, c, c1, c3⟩
      refine ⟨⟨b3, b4, b1, b2⟩, c, r, fun x hx y hy => ?_, ?_⟩
      · rw [← hl.flags _ (by omega) _ (by omega)]; exact c1 y hy x hx
      · rw [← hl.valid _ (by omega) _ (by omega)]; exact c3
    · rintro ⟨⟨b1, b2, b3, b4⟩, r, c, c1, c3⟩
      refine ⟨⟨b3, b4, b1, b2⟩, c, r, fun x hx y hy => ?_, ?_⟩
      · rw [hl.flags _ (by omega) _ (by omega)]; exact c1 y hy x hx
      · rw [hl.valid _ (by omega) _ (by omega)]; exact c3
  unfold Pandora.windowCost
  by_cases ok : Pandora.windowOk hw left D gmin gmax a b dc
  · rw [if_pos ok, if_pos (key.2 ok)]
    obtain ⟨⟨b1, b2, b3, b4⟩, ⟨r0, r1⟩, ⟨c0, c1⟩, -⟩ := e1.1 ok
    obtain ⟨⟨s1, s2⟩, s3, s4⟩ := s
    obtain ⟨⟨s5, s6⟩, s7, s8⟩ := s'
    refine hk _ _ ?_
    unfold Pandora.windowPairs
    refine (flatMap_swap _ _ _).trans (List.Perm.of_eq ?_)
    refine List.flatMap_congr fun x hx => List.map_congr_left fun y hy => ?_
    rw [List.mem_range] at hx hy
    have hx0 : (0 : K) ≤ (x : K) := Nat.cast_nonneg x
    have hx1 : (x : K) ≤ 2 * (hw : K) := by
      have : x ≤ 2 * hw := by omega
      exact_mod_cast this
    have hy0 : (0 : K) ≤ (y : K) := Nat.cast_nonneg y
    have hy1 : (y : K) ≤ 2 * (hw : K) := by
      have : y ≤ 2 * hw := by omega
      exact_mod_cast this
    have ex : ((a + x - hw : Nat) : K) = (a : K) + x - hw := by rw [Nat.cast_sub (by omega)]; push_cast; ring
    have ey : ((b + y - hw : Nat) : K) = (b : K) + y - hw := by rw [Nat.cast_sub (by omega)]; push_cast; ring
    have px : ((a + x - hw : Nat) : K) + dr = (a : K) + dr + x - hw := by rw [ex]; ring
    have py : ((b + y - hw : Nat) : K) + dc = (b : K) + dc + y - hw := by rw [ey]; ring
    rw [hl.values _ (by omega) _ (by omega)]
    rw [sample_lin h hc (x := a + x - hw) (by omega) (by rw [px]; linarith) (by rw [px, s3]; linarith) (by linarith)
      (by rw [s4]; linarith) (by omega)]
    rw [sample_lin h' hc' (x := b + y - hw) (by omega) (by rw [py]; linarith) (by rw [py, s7]; linarith) (by linarith)
      (by rw [s8]; linarith) (by omega)]
    rw [px, py, ← lin_swap]
    congr 2
    refine lin_congr (n := W) (by linarith) (by linarith) (by omega) fun v hv => ?_
    refine lin_congr (n := H) (by linarith) (by linarith) (by omega) fun u hu => ?_
    rw [hr.values _ (by omega) _ (by omega)]
  · rw [if_neg ok, if_neg fun q => ok (key.1 q)]

end

/-- C118: exchanging the rows and the columns of the images exchanges the two disparities, with fractions of pixels. Two successful executions on
full images, without estimation nor refinement, with the same window cost and fractions of pixels, whose measure does not depend on the order of
the pixels of the window: the images and the intervals of the second are those of the first with rows and columns exchanged. Each pixel which
both rasters give holds the invalid values in both, or the same score with the two disparities exchanged. The right image is read by
interpolation along its columns for the row disparities, and along its rows for the column disparities: the result does not depend on the order.
The values of the right image are above its no-data value. -/
theorem C118_exchanged_fractions_partial (w w' : World K) (user user' p p' mc mc' inp inp' l r l' r' : Fields) (out out' : List (Written K))
    (H W : Nat) (dRow dCol dRow' dCol' : Disp) (sr sc sr' sc' : Nat) (invalid invalid' : F K) (n hw : Nat) (me : Measure)
    (ker : List (F K × F K) → F K) (wf : user.wf) (wf' : user'.wf)
    (hdisk : DiskContract w H W) (hpan : PandoraContract w) (hkeeps : PandoraKeeps w.pandora) (hzoom : w.run.zoom = zoomLinear)
    (hdisk' : DiskContract w' W H) (hpan' : PandoraContract w') (hkeeps' : PandoraKeeps w'.pandora) (hzoom' : w'.run.zoom = zoomLinear)
    (cfg : OnFullImages w user p mc inp l r H W dRow dCol sr sc invalid n hw me ker)
    (cfg' : OnFullImages w' user' p' mc' inp' l' r' W H dRow' dCol' sr' sc' invalid' n hw me ker) (hk : OrderFree ker)
    (himg : ∀ left right left' right', ImagesRead w l r none left right → ImagesRead w' l' r' none left' right' →
      Transposed left left' ∧ Transposed right right')
    (hclear : ∀ left right, ImagesRead w l r none left right → ClearAbove right)
    (hr : TransposedIntervals dRow dCol' H W) (hc : TransposedIntervals dCol dRow' H W)
    (h : Main.main w user = (out, none)) (h' : Main.main w' user' = (out', none)) :
    ∃ files rest files' rest', out = .rasters files :: rest ∧ out' = .rasters files' :: rest' ∧
      (∀ f ∈ [files.row, files.col, files.score], (∀ i, i < f.h ↔ i * sr < H) ∧ ∀ j, j < f.w ↔ j * sc < W) ∧
      (∀ f ∈ [files'.row, files'.col, files'.score], (∀ i, i < f.h ↔ i * sr' < W) ∧ ∀ j, j < f.w ↔ j * sc' < H) ∧
      ∀ i j i' j' : Nat, i < files.row.h → j < files.row.w → i' < files'.row.h → j' < files'.row.w → i * sr = j' * sc' → j * sc = i' * sr' →
        SamePixel invalid invalid' (files.row.values i j) (files.col.values i j) (files.score.values i j)
          (files'.col.values i' j') (files'.row.values i' j') (files'.score.values i' j') := by
  obtain ⟨hn, files, rest, left, right, o, im, s, z, key⟩ := full_rasters cfg wf hdisk hpan hkeeps h
  obtain ⟨-, files', rest', left', right', o', im', s', z', key'⟩ := full_rasters cfg' wf' hdisk' hpan' hkeeps' h'
  obtain ⟨tl, tr⟩ := himg _ _ _ _ im im'
  refine ⟨files, rest, files', rest', o, o', z, z', fun i j i' j' hi hj hi' hj' e1 e2 => ?_⟩
  obtain ⟨gmin, gmax, ⟨g1, g2⟩, k⟩ := key i hi j hj
  obtain ⟨gmin', gmax', ⟨g1', g2'⟩, k''⟩ := key' i' hi' j' hj'
  have k' := best_exchanged k''
  have bi : i * sr < H := ((z _ List.mem_cons_self).1 i).1 hi
  have bj : j * sc < W := ((z _ List.mem_cons_self).2 j).1 hj
  rw [← e1, ← e2] at k' g1' g2'
  rw [hzoom] at k
  rw [hzoom'] at k'
  generalize i * sr = a at k k' bi g1 g2 g1' g2'
  generalize j * sc = b at k k' bj g1 g2 g1' g2'
  obtain ⟨r1, r2⟩ := hr a bi b bj
  obtain ⟨c1, c2⟩ := hc a bi b bj
  refine best_same k (best_congr (fun x y q => ?_) (best_asked (fun x y => ?_) k'))
  · obtain ⟨⟨u, v, hx, hy⟩, ⟨q1, q2⟩, q3, q4⟩ := q
    refine window_transposed hk (slab_displaced right n hn x ⟨u, hx⟩) (slab_displaced right' n hn y ⟨v, hy⟩) tl tr (hclear _ _ im) s s'
      ⟨?_, ?_⟩ ⟨?_, ?_⟩
    · rw [g1]; exact q3
    · rw [g2]; exact q4
    · rw [g1', ← r1]; exact q1
    · rw [g2', ← r2]; exact q2
  · unfold AskedPair
    rw [r1, r2, c1, c2]
    tauto

/-! ## The no-data values of the right image -/

/-- The costs of the pixel of row 0 and column 1 of the example, whose left neighbour holds the no-data value, are positive. -/
theorem exNd_right_of (gmin gmax : Arr2 Int) (x y : ℚ) (hxy : AskedPair ⟨.const (-1), 1⟩ ⟨.const (-1), 1⟩ 2 0 1 x y)
    (hn : Pandora.windowCost 0 sad (exLeftNd (.fin (-1))) (slabImg zoomLinear (exRightNd (.fin (-1))) 2 x) gmin gmax 0 1 y ≠ .nan) :
    F.le (Pandora.windowCost 0 sad (exLeftNd (.fin (-1))) (slabImg zoomLinear (exRightNd (.fin (-1))) 2 x) gmin gmax 0 1 y) (.fin 0) = false := by
  obtain ⟨⟨k, v, hk, hv⟩, ⟨r1, r2⟩, c1, c2⟩ := hxy
  simp only [initAt] at r1 r2 c1 c2
  have hk' : k = -4 ∨ k = -3 ∨ k = -2 ∨ k = -1 ∨ k = 0 := by
    have h1 : ((-4 : Int) : ℚ) ≤ k := by rw [← hk]; push_cast at r1 ⊢; linarith
    have h2 : (k : ℚ) ≤ ((0 : Int) : ℚ) := by rw [← hk]; push_cast at r2 ⊢; linarith
    have h1' : -4 ≤ k := by exact_mod_cast h1
    have h2' : k ≤ 0 := by exact_mod_cast h2
    omega
  have ex : x = k / 2 := by rw [← hk]; simp
  unfold Pandora.windowCost at hn ⊢
  split_ifs at hn ⊢ with ho
  · obtain ⟨-, ⟨o1, -⟩, -, -, o2, -⟩ := ho
    rw [Int.le_floor] at o1
    push_cast at o1 c2
    have hv' : v = 0 ∨ v < 0 := by
      have h2 : (v : ℚ) ≤ ((0 : Int) : ℚ) := by rw [← hv]; push_cast; linarith
      have h2' : v ≤ 0 := by exact_mod_cast h2
      omega
    rcases hv' with rfl | hv'
    · obtain rfl : y = 0 := by
        push_cast at hv; linarith
      have f := o2 0 (by decide) 1 (by simp) (by simp)
      have : Pandora.windowPairs 0 (exLeftNd (.fin (-1))) (slabImg zoomLinear (exRightNd (.fin (-1))) 2 x) 0 1 (((1 : Nat) : ℚ) + 0) =
          [(.fin (99 / 2), (slabImg zoomLinear (exRightNd (.fin (-1))) 2 x).im 0 1)] := by
        simp [Pandora.windowPairs, Pandora.sampleCol, exLeftNd, exImgNd]
      rw [this]
      clear this hn o2 hk r1 r2
      subst ex
      rcases hk' with rfl | rfl | rfl | rfl | rfl <;> revert f <;> decide +kernel
    · have hy : y < 0 := by
        have : (v : ℚ) < 0 := by exact_mod_cast hv'
        rw [← hv] at this; push_cast at this; linarith
      have f := o2 0 (by decide) 0
        (by
          have : ⌊((1 : Nat) : ℚ) + y⌋ < 1 := Int.floor_lt.2 (by push_cast; linarith)
          push_cast at this ⊢; omega)
        (by
          have : (0 : Int) ≤ ⌈((1 : Nat) : ℚ) + y⌉ := Int.ceil_nonneg (by push_cast; linarith)
          push_cast at this ⊢; omega)
      exfalso
      clear hn o2 hk r1 r2
      subst ex
      rcases hk' with rfl | rfl | rfl | rfl | rfl <;> revert f <;> decide +kernel
  · exact absurd rfl hn

/-- The full claim of C118 is false of the code: a row between two rows is interpolated from the no-data values, a column between two columns is
not. -/
theorem C118_false : ¬ ∀ (w w' : World ℚ) (user user' p p' mc mc' inp inp' l r l' r' : Fields) (out out' : List (Written ℚ))
    (H W : Nat) (dRow dCol dRow' dCol' : Disp) (sr sc sr' sc' : Nat) (invalid invalid' : F ℚ) (n hw : Nat) (me : Measure)
    (ker : List (F ℚ × F ℚ) → F ℚ), user.wf → user'.wf →
    DiskContract w H W → PandoraContract w → PandoraKeeps w.pandora → w.run.zoom = zoomLinear →
    DiskContract w' W H → PandoraContract w' → PandoraKeeps w'.pandora → w'.run.zoom = zoomLinear →
    OnFullImages w user p mc inp l r H W dRow dCol sr sc invalid n hw me ker →
    OnFullImages w' user' p' mc' inp' l' r' W H dRow' dCol' sr' sc' invalid' n hw me ker → OrderFree ker →
    (∀ left right left' right', ImagesRead w l r none left right → ImagesRead w' l' r' none left' right' →
      Transposed left left' ∧ Transposed right right') →
    (∀ left right, ImagesRead w l r none left right → right.noData ≠ .nan) →
    TransposedIntervals dRow dCol' H W → TransposedIntervals dCol dRow' H W →
    Main.main w user = (out, none) → Main.main w' user' = (out', none) →
    ∃ files rest files' rest', out = .rasters files :: rest ∧ out' = .rasters files' :: rest' ∧
      ∀ i j i' j' : Nat, i < files.row.h → j < files.row.w → i' < files'.row.h → j' < files'.row.w → i * sr = j' * sc' → j * sc = i' * sr' →
        SamePixel invalid invalid' (files.row.values i j) (files.col.values i j) (files.score.values i j)
          (files'.col.values i' j') (files'.row.values i' j') (files'.score.values i' j') := by
  intro hst
  set fl : Nat → Nat → F ℚ := fun _ _ => .fin (99 / 2) with hfl
  set fr : Nat → Nat → F ℚ := fun _ _ => .fin 100 with hfr
  obtain ⟨p, inp, cfg⟩ := exWorldNd_full (.fin (-1)) fl fr 2 (.inr rfl)
  have r := exWorldNd_runs (.fin (-1)) fl fr 2 (.inr rfl)
  have ct := exWorldNd_contract (.fin (-1)) fl fr
  have wf : (exUserSub 1 2 (.int (-1))).wf := exUserSub_wf _ _ _ (by simp [J.wf])
  obtain ⟨files, rest, files', rest', o, o', key⟩ := hst _ _ _ _ _ _ _ _ _ _ _ _ _ _ _ _ 3 3 _ _ _ _ 1 1 1 1 _ _ 2 0 .min sad wf wf
    ct.disk ct.pandora ct.keeps rfl ct.disk ct.pandora ct.keeps rfl cfg cfg (sumOf_orderFree _)
    (fun left right left' right' h h' => by
      obtain ⟨rfl, rfl⟩ := exWorldNd_images _ _ _ _ _ h
      obtain ⟨rfl, rfl⟩ := exWorldNd_images _ _ _ _ _ h'
      refine ⟨⟨rfl, fun _ _ _ _ => rfl, fun _ _ _ _ => rfl, fun _ _ _ _ => rfl⟩, rfl, fun x _ y _ => ?_, fun _ _ _ _ => rfl, fun _ _ _ _ => rfl⟩
      simp only [exImgNd, and_comm, hfr])
    (fun left right h => by obtain ⟨rfl, rfl⟩ := exWorldNd_images _ _ _ _ _ h; simp [exImgNd])
    (fun _ _ _ _ => ⟨rfl, rfl⟩) (fun _ _ _ _ => ⟨rfl, rfl⟩) r r
  rw [o, List.cons.injEq, Written.rasters.injEq] at o'
  obtain ⟨rfl, -⟩ := o'
  obtain ⟨-, files1, rest1, left, right, o1, im, -, z, k⟩ := full_rasters cfg wf ct.disk ct.pandora ct.keeps r
  obtain ⟨rfl, rfl⟩ := exWorldNd_images _ _ _ _ _ im
  rw [o, List.cons.injEq, Written.rasters.injEq] at o1
  obtain ⟨rfl, -⟩ := o1
  have b := z _ List.mem_cons_self
  obtain ⟨gmin, gmax, ⟨g1, g2⟩, k1⟩ := k 1 ((b.1 _).2 (by decide)) 0 ((b.2 _).2 (by decide))
  obtain ⟨gmin', gmax', -, k2⟩ := k 0 ((b.1 _).2 (by decide)) 1 ((b.2 _).2 (by decide))
  rw [Nat.mul_one, Nat.mul_one, Nat.cast_zero, Nat.cast_one] at k2
  replace k2 : BestPair .min (AskedPair ⟨.const (-1), 1⟩ ⟨.const (-1), 1⟩ 2 0 1) (fun x y => Pandora.windowCost 0 sad (exLeftNd (.fin (-1)))
    (slabImg zoomLinear (exRightNd (.fin (-1))) 2 x) gmin' gmax' 0 1 y) .nan (files.row.values 0 1) (files.col.values 0 1)
    (files.score.values 0 1) := k2
  have zero := exNd_zero gmin gmax g1 g2
  have asked : AskedPair ⟨.const (-1), 1⟩ ⟨.const (-1), 1⟩ 2 1 0 (-1 / 2 : ℚ) 0 :=
    ⟨⟨-1, 0, by norm_num, by norm_num⟩, ⟨by simp only [initAt]; norm_num, by simp only [initAt]; norm_num⟩, by simp only [initAt]; norm_num,
      by simp only [initAt]; norm_num⟩
  obtain ⟨⟨hs, -⟩, hb⟩ := k1.best ⟨-1 / 2, 0, asked, fun e => absurd (zero.symm.trans e) (by simp)⟩
  have low : F.le (files.score.values 1 0) (.fin 0) = true := hb _ ⟨by simp, _, _, asked, zero⟩
  rcases key 1 0 0 1 ((b.1 _).2 (by decide)) ((b.2 _).2 (by decide)) ((b.1 _).2 (by decide)) ((b.2 _).2 (by decide)) rfl rfl with
    q | ⟨-, -, q⟩
  · exact hs q.2.2.1
  · by_cases he : ∃ x y : ℚ, AskedPair ⟨.const (-1), 1⟩ ⟨.const (-1), 1⟩ 2 0 1 x y ∧
        Pandora.windowCost 0 sad (exLeftNd (.fin (-1))) (slabImg zoomLinear (exRightNd (.fin (-1))) 2 x) gmin' gmax' 0 1 y ≠ .nan
    · obtain ⟨⟨hs', x, y, a1, a2⟩, -⟩ := k2.best he
      have pos := exNd_right_of gmin' gmax' x y a1 (fun e => hs' (a2.symm.trans e))
      have e : Pandora.windowCost 0 sad (exLeftNd (.fin (-1))) (slabImg zoomLinear (exRightNd (.fin (-1))) 2 x) gmin' gmax' 0 1 y =
        files.score.values 0 1 := a2
      rw [e, ← q, low] at pos
      exact absurd pos (by decide)
    · push Not at he
      exact hs (q.trans (k2.invalid he).2.2)

/-! ## Examples -/

/-- Whatever the two images of positive values, with disparities of half pixels. -/
example (vl vr : Nat → Nat → ℚ) (hv : ∀ x y, 0 ≤ vr x y) : ∃ files rest files' rest',
    Main.main (exWorldT (fun x y => .fin (vl x y)) (fun x y => .fin (vr x y))) (exUserSub 1 2 (.int 1)) = (.rasters files :: rest, none) ∧
    Main.main (exWorldT (fun x y => .fin (vl y x)) (fun x y => .fin (vr y x))) (exUserSub 1 2 (.int 1)) = (.rasters files' :: rest', none) ∧
    ∀ i < 3, ∀ j < 3, SamePixel .nan .nan (files.row.values i j) (files.col.values i j) (files.score.values i j)
      (files'.col.values j i) (files'.row.values j i) (files'.score.values j i) := by
  obtain ⟨p, inp, cfg⟩ := exWorldT_full (fun x y => .fin (vl x y)) (fun x y => .fin (vr x y)) 1 2 (.inr rfl)
  obtain ⟨p', inp', cfg'⟩ := exWorldT_full (fun x y => .fin (vl y x)) (fun x y => .fin (vr y x)) 1 2 (.inr rfl)
  have r := exWorldT_runs_half (fun x y => .fin (vl x y)) (fun x y => .fin (vr x y)) 1 (.inl rfl)
  have r' := exWorldT_runs_half (fun x y => .fin (vl y x)) (fun x y => .fin (vr y x)) 1 (.inl rfl)
  have ct := exWorldT_contract (fun x y => .fin (vl x y)) (fun x y => .fin (vr x y))
  have ct' := exWorldT_contract (fun x y => .fin (vl y x)) (fun x y => .fin (vr y x))
  obtain ⟨files, rest, files', rest', o, o', z, z', key⟩ := C118_exchanged_fractions_partial _ _ _ _ _ _ _ _ _ _ _ _ _ _ _ _ 3 3
    _ _ _ _ 1 1 1 1 _ _ 2 0 .min sad
    (exUserSub_wf _ _ _ (by simp [J.wf])) (exUserSub_wf _ _ _ (by simp [J.wf])) ct.disk ct.pandora ct.keeps rfl ct'.disk ct'.pandora ct'.keeps rfl
    cfg cfg' (sumOf_orderFree _) (fun left right left' right' h h' => by
      obtain ⟨rfl, rfl⟩ := exWorldT_images _ _ _ _ h
      obtain ⟨rfl, rfl⟩ := exWorldT_images _ _ _ _ h'
      exact ⟨⟨rfl, fun _ _ _ _ => rfl, fun _ _ _ _ => rfl, fun _ _ _ _ => rfl⟩, rfl, fun _ _ _ _ => rfl, fun _ _ _ _ => rfl, fun _ _ _ _ => rfl⟩)
    (fun left right h => by
      obtain ⟨rfl, rfl⟩ := exWorldT_images _ _ _ _ h
      exact ⟨-1, rfl, fun x _ y _ => ⟨vr x y, rfl, by linarith [hv x y]⟩⟩)
    (fun _ _ _ _ => ⟨rfl, rfl⟩) (fun _ _ _ _ => ⟨rfl, rfl⟩) r r'
  have b := z _ List.mem_cons_self
  have b' := z' _ List.mem_cons_self
  exact ⟨files, rest, files', rest', by rw [r]; exact congrArg (·, none) o, by rw [r']; exact congrArg (·, none) o', fun i hi j hj =>
    key i j j i ((b.1 i).2 (by omega)) ((b.2 j).2 (by omega)) ((b'.1 j).2 (by omega)) ((b'.2 i).2 (by omega)) rfl rfl⟩

end Verif.Props
