import Verif.Props.InterpSteps
import Verif.Props.RefinedGiven

/-!
# C158: the invalid value and the disparities given by an interpolation
-/

namespace Verif.Props

open Verif Verif.Config Verif.Machine Verif.ImgTools Verif.MatchingCost Verif.Disparity Verif.Run Verif.Main Verif.Spec Verif.Save
  Verif.Statistics Verif.Interpolation

set_option linter.unusedSectionVars false

variable {K : Type} [Field K] [LinearOrder K] [IsStrictOrderedRing K] [FloorRing K]

/-- A pixel has a number exactly when a cost is read for it. -/
theorem interp_number {e : IExt K} {me : Measure} {read : K → K → Prop} {cost : K → K → F K} {ax ay : Arr1 K} {r0 c0 row col score : F K}
    (h : InterpPixel e me read cost ax ay r0 c0 row col score) :
    (row ≠ .nan ↔ ∃ i < ax.n, ∃ j < ay.n, read (ay.get j) (ax.get i) ∧ cost (ay.get j) (ax.get i) ≠ .nan) ∧
      (row = .nan → col = .nan ∧ score = .nan) := by
  by_cases hex : ∃ i < ax.n, ∃ j < ay.n, read (ay.get j) (ax.get i) ∧ cost (ay.get j) (ax.get i) ≠ .nan
  · obtain ⟨_, _, _, y, -, -, -, -, -, -, e1, -⟩ := h.minimised hex
    have : row ≠ .nan := by rw [e1]; simp
    exact ⟨⟨fun _ => hex, fun _ => this⟩, fun q => absurd q this⟩
  · obtain ⟨e1, e2, e3⟩ := h.empty fun i hi j hj q => by
      by_contra hc
      exact hex ⟨i, hi, j, hj, q, hc⟩
    exact ⟨⟨fun q => absurd e1 q, fun q => absurd q hex⟩, fun _ => ⟨e2, e3⟩⟩

/-- C158, for the pixels which have two windows to compare. Two successful executions with an interpolation which starts from whole pixels on the same full
images, without estimation, with the same intervals and a window cost which is a number for finite values: whatever their invalid values and their steps,
the same pixels have NaN, three times, and the three values are the same at every pixel where two windows displaced by a pair of its intervals can be
compared. Missing: the pixels where only windows displaced by the margins can be compared (`C158_false`). -/
theorem C158_invalid_interpolation_partial (w : World K) (user user' p p' mc mc' inp inp' l r f f' : Fields) (out out' : List (Written K))
    (H W : Nat) (dRow dCol : Disp) (sr sc sr' sc' : Nat) (invalid invalid' : F K) (hw : Nat) (me : Measure) (ker : List (F K × F K) → F K)
    (wf : user.wf) (wf' : user'.wf)
    (hdisk : DiskContract w H W) (hpan : PandoraContract w) (hkeeps : PandoraKeeps w.pandora)
    (hb : BoundsContract w.run.interp) (he : ReadsInside w.run.interp) (hk : FiniteKernel ker)
    (cfg : Interpolated w user p mc inp l r f H W dRow dCol sr sc invalid 1 hw me ker)
    (cfg' : Interpolated w user' p' mc' inp' l r f' H W dRow dCol sr' sc' invalid' 1 hw me ker)
    (hdata : ∀ left right, ImagesRead w l r none left right → FiniteData left ∧ right.noData ≠ .nan ∧
      ∀ x < right.h, ∀ y < right.w, right.im x y ≠ right.noData → ∃ k, right.im x y = .fin k)
    (h : Main.main w user = (out, none)) (h' : Main.main w user' = (out', none)) :
    ∃ files rest files' rest' left right, out = .rasters files :: rest ∧ out' = .rasters files' :: rest' ∧ ImagesRead w l r none left right ∧
      (∀ f ∈ [files.row, files.col, files.score], (∀ i, i < f.h ↔ i * sr < H) ∧ ∀ j, j < f.w ↔ j * sc < W) ∧
      (∀ f ∈ [files'.row, files'.col, files'.score], (∀ i, i < f.h ↔ i * sr' < H) ∧ ∀ j, j < f.w ↔ j * sc' < W) ∧
      ∀ i j i' j' a b : Nat, a = i * sr → a = i' * sr' → b = j * sc → b = j' * sc' → a < H → b < W →
        (files.row.values i j = .nan ↔ files'.row.values i' j' = .nan) ∧
        (files.row.values i j = .nan → files.col.values i j = .nan ∧ files.score.values i j = .nan ∧
          files'.col.values i' j' = .nan ∧ files'.score.values i' j' = .nan) ∧
        ((∃ u v, InIntervals dRow dCol a b u v ∧ Comparable hw left right a b u v) →
          files'.row.values i' j' = files.row.values i j ∧ files'.col.values i' j' = files.col.values i j ∧
            files'.score.values i' j' = files.score.values i j) := by
  obtain ⟨s⟩ := interpolated_stages cfg wf hpan h
  obtain ⟨s'⟩ := interpolated_stages cfg' wf' hpan h'
  obtain ⟨er, el⟩ := s.read_images s' cfg.full cfg'.full cfg.noEstimation cfg'.noEstimation cfg.input cfg'.input cfg.left cfg'.left
    cfg.right cfg'.right wf wf'
  obtain ⟨hn, im, ⟨sl, -⟩, o, z, ax, ay, fr, lr, fc, lc, gmin, gmax, ⟨x1, x2⟩, ⟨fy, fx⟩, hg, key⟩ := s.interpolated cfg wf hdisk hkeeps hb
  obtain ⟨-, -, ⟨sl', -⟩, o', z', ax', ay', fr', lr', fc', lc', gmin', gmax', ⟨x1', x2'⟩, ⟨fy', fx'⟩, hg', key'⟩ :=
    s'.interpolated cfg' wf' hdisk hkeeps hb
  obtain ⟨rfl, rfl⟩ := extent_same sl sl' o o' (fun _ _ _ _ => ⟨rfl, rfl⟩) x1 x1'
  obtain ⟨rfl, rfl⟩ := extent_same sl sl' o o' (fun _ _ _ _ => ⟨rfl, rfl⟩) x2 x2'
  rw [er, el] at key'
  obtain ⟨hfl, hnd, hfr⟩ := hdata _ _ im
  refine ⟨s.files, _, s'.files, _, s.left.img, s.right.img, s.outIs, s'.outIs, im, z, z', fun i j i' j' a b ea ea' eb eb' ha hbW => ?_⟩
  obtain ⟨r0, c0, s0, b1, p1⟩ := key i j a b ea eb ha hbW
  obtain ⟨r1, c1, s1, b2, p2⟩ := key' i' j' a b ea' eb' ha hbW
  obtain ⟨g1, g2⟩ := hg a ha b hbW
  obtain ⟨g1', g2'⟩ := hg' a ha b hbW
  have costs : ∀ x y : K, Pandora.windowCost hw ker s.left.img (slabImg w.run.zoom s.right.img 1 x) gmin' gmax' a b y =
      Pandora.windowCost hw ker s.left.img (slabImg w.run.zoom s.right.img 1 x) gmin gmax a b y := by
    intro x y
    unfold Pandora.windowCost Pandora.windowOk
    rw [g1, g2, g1', g2']
  simp only [costs] at b2 p2
  have ex := lattice_same hn fx fx'
  have ey := lattice_same hn fy fy'
  obtain ⟨n1, n2⟩ := interp_number p1
  obtain ⟨n1', n2'⟩ := interp_number p2
  have same : s.files.row.values i j = .nan ↔ s'.files.row.values i' j' = .nan := by
    refine not_iff_not.1 (n1.trans (Iff.trans ?_ n1'.symm))
    constructor
    · rintro ⟨m, hm, k, hk', q⟩
      exact ⟨m, by rw [ex.1]; exact hm, k, by rw [ey.1]; exact hk', by rw [ex.2 m hm, ey.2 k hk']; exact q⟩
    · rintro ⟨m, hm, k, hk', q⟩
      rw [ex.1] at hm
      rw [ey.1] at hk'
      exact ⟨m, hm, k, hk', by rw [← ex.2 m hm, ← ey.2 k hk']; exact q⟩
  refine ⟨same, fun q => ⟨(n2 q).1, (n2 q).2, (n2' (same.1 q)).1, (n2' (same.1 q)).2⟩, ?_⟩
  rintro ⟨u, v, ⟨⟨k1, k2⟩, k3, k4⟩, hc⟩
  have some_ : ∃ x y, AskedPair dRow dCol 1 a b x y ∧
      Pandora.windowCost hw ker s.left.img (slabImg w.run.zoom s.right.img 1 x) gmin gmax a b y ≠ .nan := by
    refine ⟨(u : K), (v : K), ⟨⟨u, v, by simp, by simp⟩, ⟨Int.cast_le.2 k1, Int.cast_le.2 k2⟩, Int.cast_le.2 k3, Int.cast_le.2 k4⟩, ?_⟩
    rw [slab_int]
    exact (window_exists hk hnd hfl hfr (by rw [g1, g2]; omega)).2 hc
  obtain ⟨rfl, rfl, -⟩ := BestPair.unique b1 (invalid := invalid) ⟨fun q => by
    obtain ⟨x, y, t1, t2⟩ := some_
    exact absurd (q x y t1) t2, b2.best, b2.smallest⟩
  exact interp_same he ex ey ⟨fx.pos, fy.pos⟩ (fun _ _ _ _ => ⟨Iff.rfl, rfl⟩) p1 p2

/-! ## Example and disagreement -/

/-- The start of a minimisation, put in the bounds. -/
def clampTo (x : F ℚ) (b : ℚ × ℚ) : ℚ :=
  match x with
  | .fin u => max b.1 (min u b.2)
  | _ => b.1

/-- An interpolation which goes through the samples and a minimisation which stays where it starts, as on a flat surface. -/
def exStay : IExt ℚ := { exI with minimize := fun _ x b => (clampTo x.1 b.1, clampTo x.2 b.2) }

theorem clampTo_in (x : F ℚ) {b : ℚ × ℚ} (h : b.1 ≤ b.2) : b.1 ≤ clampTo x b ∧ clampTo x b ≤ b.2 := by
  unfold clampTo
  split
  · exact ⟨le_max_left _ _, max_le h (min_le_right _ _)⟩
  · exact ⟨le_refl _, h⟩

theorem exStay_bounds : BoundsContract exStay := fun _ x _ h1 h2 =>
  ⟨(clampTo_in x.1 h1).1, (clampTo_in x.1 h1).2, (clampTo_in x.2 h2).1, (clampTo_in x.2 h2).2⟩

theorem exStay_reads : ReadsInside exStay := exI_reads

noncomputable def exWorldStay (l r : Img ℚ) : World ℚ := { exWorldImgs l r with run := { (exWorldImgs l r).run with interp := exStay } }

theorem exWorldStay_contract {l r : Img ℚ} (hl : exSized l) (hr : exSized r) : RunContract (exWorldStay l r) 6 6 := by
  obtain ⟨⟨d1, d2, d3, d4, d5⟩, ⟨p1, p2⟩, k, f, a, o, i, s⟩ := exWorldImgs_contract hl hr
  exact ⟨⟨d1, d2, d3, d4, d5⟩, ⟨p1, p2⟩, k, f, a, o, i, s⟩

/-- The only disparity zero, an interpolation and the invalid value `v`. -/
def exUserMark (v : Int) : Fields := dict [("input", .obj (exInputBox 0 0)), ("pipeline", .obj (dict [
  ("matching_cost", .obj (dict [("matching_cost_method", .str "zncc"), ("window_size", .int 1),
    ("step", .arr (.cons (.int 1) (.cons (.int 1) .nil)))])),
  ("disparity", .obj (dict [("disparity_method", .str "wta"), ("invalid_disparity", .int v)])), ("refinement", exInterp)]))]

theorem exUserMark_wf (v : Int) : (exUserMark v).wf := by
  simp [exUserMark, exInputBox, exL, exR, exInterp, dict, Fields.wf, J.wf, Fields.keys]

theorem exMark_cfg (l r : Img ℚ) (v : Int) :
    ∃ p mc inp f, Interpolated (exWorldStay l r) (exUserMark v) p mc inp exL exR f 6 6 ⟨.const 0, 0⟩ ⟨.const 0, 0⟩ 1 1 (.fin (v : ℚ)) 1 1 .min sad :=
  ⟨_, _, _, _, rfl, rfl, rfl, rfl, rfl, rfl, rfl, rfl, rfl,
    ⟨_, _, _, _, _, .int 1, rfl, rfl, rfl, .inl rfl, rfl, rfl⟩,
    ⟨⟨_, rfl, ⟨_, _, _, rfl, rfl, rfl, .inl rfl, .inl ⟨_, .inl rfl, rfl⟩⟩, ⟨_, _, _, rfl, rfl, rfl, .inl rfl, .inl ⟨_, .inl rfl, rfl⟩⟩⟩,
    .inr ⟨rfl, rfl, rfl, rfl, rfl⟩,
    ⟨_, _, _, rfl, rfl, rfl, .inl ⟨_, _, rfl, .inl rfl, .inl rfl⟩, .inl ⟨_, rfl, .inl ⟨_, .inl rfl, rfl⟩⟩⟩⟩⟩

theorem exMark_runs {l r : Img ℚ} (hl : exSized l) (hr : exSized r) (v : Int) (hacc : accepted exWorldSixF (exUserMark v) = true) :
    Main.main (exWorldStay l r) (exUserMark v) = ((Main.main (exWorldStay l r) (exUserMark v)).1, none) := by
  have : (Main.main (exWorldStay l r) (exUserMark v)).2 = none := by
    obtain ⟨m, cfg, h⟩ := accepted_ok hacc
    refine C81_accepted_runs_partial (exWorldStay l r) _ _ _ cfg m 6 6 0 5 0 5 1 1 (exUserMark_wf v) (exWorldStay_contract hl hr) rfl
      (by simp [dict, Fields.keys])
      rfl (.inl ⟨_, _, rfl, .inl rfl, .inl rfl⟩) (.inr ⟨rfl, rfl, rfl, rfl, rfl⟩) (by omega) ?_ ?_ (.inl ⟨rfl, rfl⟩) h
    · intro he
      exact absurd rfl he
    · intro v hv
      have : v = exInterp := (Option.some.inj hv).symm
      subst this
      exact ⟨_, rfl, .inl rfl⟩
  exact Prod.ext rfl this

/-- Whatever the numbers of the images and the holes of the right one: with the invalid values 1 and -9999, the same pixels have NaN, and the values are the
same where the window of the right image has data. -/
example (nd : ℚ) (hole : Nat → Nat → Bool) (fl fr : Nat → Nat → ℚ) : ∃ files rest files' rest',
    Main.main (exWorldStay (exImgSix fun x y => .fin (fl x y)) (exHoled (.fin nd) hole fun x y => .fin (fr x y))) (exUserMark 1) =
      (.rasters files :: rest, none) ∧
    Main.main (exWorldStay (exImgSix fun x y => .fin (fl x y)) (exHoled (.fin nd) hole fun x y => .fin (fr x y))) (exUserMark (-9999)) =
      (.rasters files' :: rest', none) ∧
    ∀ a b : Nat, a < 6 → b < 6 → (files.row.values a b = .nan ↔ files'.row.values a b = .nan) ∧
      (Comparable 1 (exImgSix fun x y => .fin (fl x y)) (exHoled (.fin nd) hole fun x y => .fin (fr x y)) a b 0 0 →
        files'.row.values a b = files.row.values a b ∧ files'.col.values a b = files.col.values a b ∧
          files'.score.values a b = files.score.values a b) := by
  have sl : exSized (exImgSix fun x y => .fin (fl x y)) := ⟨⟨rfl, rfl⟩, rfl, rfl⟩
  have sr : exSized (exHoled (.fin nd) hole fun x y => .fin (fr x y)) := ⟨⟨rfl, rfl⟩, rfl, rfl⟩
  obtain ⟨_, _, _, _, cfg⟩ := exMark_cfg (exImgSix fun x y => .fin (fl x y)) (exHoled (.fin nd) hole fun x y => .fin (fr x y)) 1
  obtain ⟨_, _, _, _, cfg'⟩ := exMark_cfg (exImgSix fun x y => .fin (fl x y)) (exHoled (.fin nd) hole fun x y => .fin (fr x y)) (-9999)
  have ct := exWorldStay_contract sl sr
  have h1 := exMark_runs sl sr 1 (by decide +kernel)
  have h2 := exMark_runs sl sr (-9999) (by decide +kernel)
  obtain ⟨files, rest, files', rest', left, right, o, o', i, -, -, key⟩ := C158_invalid_interpolation_partial _ _ _ _ _ _ _ _ _ _ _ _ _ _ _ 6 6
    _ _ _ _ _ _ _ _ _ _ _ (exUserMark_wf _) (exUserMark_wf _) ct.disk ct.pandora ct.keeps exStay_bounds exStay_reads (sumOf_finite _) cfg cfg'
    (fun left right i => by obtain ⟨rfl, rfl⟩ := exWorldImgs_images i; exact exHoled_data _ _ _ _) h1 h2
  obtain ⟨rfl, rfl⟩ := exWorldImgs_images i
  refine ⟨files, rest, files', rest', by rw [h1]; exact congrArg (·, none) o, by rw [h2]; exact congrArg (·, none) o', fun a b ha hb => ?_⟩
  obtain ⟨k1, -, k3⟩ := key a b a b a b (by omega) (by omega) (by omega) (by omega) ha hb
  exact ⟨k1, fun q => k3 ⟨0, 0, ⟨⟨by simp [initAt], by simp [initAt]⟩, by simp [initAt], by simp [initAt]⟩, q⟩⟩

/-- The full statement: at every pixel the executions give the same values, or each its invalid value. -/
def C158Statement : Prop := ∀ (w : World ℚ) (user user' p p' mc mc' inp inp' l r f f' : Fields) (out out' : List (Written ℚ))
    (H W : Nat) (dRow dCol : Disp) (sr sc sr' sc' : Nat) (invalid invalid' : F ℚ) (hw : Nat) (me : Measure) (ker : List (F ℚ × F ℚ) → F ℚ),
    user.wf → user'.wf → DiskContract w H W → PandoraContract w → PandoraKeeps w.pandora →
    BoundsContract w.run.interp → ReadsInside w.run.interp → FiniteKernel ker →
    Interpolated w user p mc inp l r f H W dRow dCol sr sc invalid 1 hw me ker →
    Interpolated w user' p' mc' inp' l r f' H W dRow dCol sr' sc' invalid' 1 hw me ker →
    (∀ left right, ImagesRead w l r none left right → FiniteData left ∧ right.noData ≠ .nan ∧
      ∀ x < right.h, ∀ y < right.w, right.im x y ≠ right.noData → ∃ k, right.im x y = .fin k) →
    Main.main w user = (out, none) → Main.main w user' = (out', none) →
    ∃ files rest files' rest', out = .rasters files :: rest ∧ out' = .rasters files' :: rest' ∧
      ∀ i j i' j' a b : Nat, a = i * sr → a = i' * sr' → b = j * sc → b = j' * sc' → a < H → b < W →
        files'.row.values i' j' = files.row.values i j ∨ (files.row.values i j = invalid ∧ files'.row.values i' j' = invalid')

/-- The pixel of row 1 and column 2: no window displaced by a pair of its intervals holds data, and the minimisation starts from the invalid value. -/
theorem exMark_pixel (v : Int) {p mc inp f : Fields} {out : List (Written ℚ)}
    (cfg : Interpolated (exWorldStay exZeros exLow) (exUserMark v) p mc inp exL exR f 6 6 ⟨.const 0, 0⟩ ⟨.const 0, 0⟩ 1 1 (.fin (v : ℚ)) 1 1 .min sad)
    (h : Main.main (exWorldStay exZeros exLow) (exUserMark v) = (out, none)) :
    ∃ files rest, out = .rasters files :: rest ∧ files.row.values 1 2 = .fin (max (-3) (min (v : ℚ) 3)) := by
  have ct := exWorldStay_contract (l := exZeros) (r := exLow) ⟨⟨rfl, rfl⟩, rfl, rfl⟩ ⟨⟨rfl, rfl⟩, rfl, rfl⟩
  obtain ⟨s⟩ := interpolated_stages cfg (exUserMark_wf v) ct.pandora h
  obtain ⟨-, im, -, o, -, ax, ay, fr, lr, fc, lc, gmin, gmax, ⟨x1, x2⟩, ⟨fy, fx⟩, hg, key⟩ :=
    s.interpolated cfg (exUserMark_wf v) ct.disk ct.keeps exStay_bounds
  obtain ⟨el, er⟩ : s.left.img = exZeros ∧ s.right.img = exLow := exWorldImgs_images im
  rw [el, er] at key
  rw [el] at x1 x2
  refine ⟨s.files, _, s.outIs, ?_⟩
  obtain ⟨r0, c0, s0, best, pix⟩ := key 1 2 1 2 rfl rfl (by decide) (by decide)
  obtain ⟨g1, g2⟩ := hg 1 (by decide) 2 (by decide)
  have g1 : gmin.get 1 2 = -3 := g1
  have g2 : gmax.get 1 2 = 3 := g2
  obtain ⟨_, _, _, _, w1⟩ := x1.reached
  obtain ⟨_, _, _, _, w2⟩ := x1.reached'
  obtain ⟨_, _, _, _, w3⟩ := x2.reached
  obtain ⟨_, _, _, _, w4⟩ := x2.reached'
  obtain rfl : fr = 0 := w1.symm
  obtain rfl : lr = 0 := w2.symm
  obtain rfl : fc = 0 := w3.symm
  obtain rfl : lc = 0 := w4.symm
  obtain ⟨rfl, rfl, -⟩ := best.invalid (by
    rintro x y ⟨⟨kx, ky, hx, hy⟩, ⟨k1, k2⟩, k3, k4⟩
    rw [Nat.cast_one, mul_one] at hx hy
    subst hx hy
    have k1 : (0 : Int) ≤ kx := Int.cast_le.1 k1
    have k2 : kx ≤ (0 : Int) := Int.cast_le.1 k2
    have k3 : (0 : Int) ≤ ky := Int.cast_le.1 k3
    have k4 : ky ≤ (0 : Int) := Int.cast_le.1 k4
    by_contra hc
    rw [slab_int, window_whole (by simp [exLow, exHoled]) (by omega)] at hc
    have := exLow_cost kx ky hc
    omega)
  obtain ⟨m, hm, em, -⟩ := fx.complete 0 (by norm_num) (by norm_num)
  obtain ⟨n, hn, en, -⟩ := fy.complete 3 (by norm_num) (by norm_num)
  rw [Nat.cast_one, div_one] at em en
  have q2 : Pandora.windowCost 1 sad exZeros (slabImg (exWorldStay exZeros exLow).run.zoom exLow 1 (ay.get n)) gmin gmax 1 2 (ax.get m) ≠ .nan := by
    rw [em, en, slab_int, window_whole (by simp [exLow, exHoled]) (by rw [g1, g2]; decide), exLow_three]
    simp
  obtain ⟨_, _, x, y, -, -, -, -, e1, -, e2, -⟩ := pix.minimised ⟨m, hm, n, hn, ⟨.inr (.inr (by rw [en]; norm_num)), .inl (by rw [em]; norm_num [initAt])⟩, q2⟩
  rw [fx.first, fx.last, fy.first, fy.last] at e1
  have e3 := congrArg Prod.snd e1
  have e3 : clampTo (.fin (v : ℚ)) (((0 - 3 : Int) : ℚ), ((0 + 3 : Int) : ℚ)) = y := e3
  rw [e2, ← e3]
  simp [clampTo]

/-- With the invalid value 1 a pixel without data in its intervals has the row disparity 1, with the invalid value -9999 it has the row disparity -3. -/
theorem C158_false : ¬ C158Statement := by
  intro hst
  have s1 : exSized exZeros := ⟨⟨rfl, rfl⟩, rfl, rfl⟩
  have s2 : exSized exLow := ⟨⟨rfl, rfl⟩, rfl, rfl⟩
  obtain ⟨_, _, _, _, cfg⟩ := exMark_cfg exZeros exLow 1
  obtain ⟨_, _, _, _, cfg'⟩ := exMark_cfg exZeros exLow (-9999)
  have ct := exWorldStay_contract s1 s2
  have h1 := exMark_runs s1 s2 1 (by decide +kernel)
  have h2 := exMark_runs s1 s2 (-9999) (by decide +kernel)
  obtain ⟨files, rest, files', rest', o, o', key⟩ := hst _ _ _ _ _ _ _ _ _ _ _ _ _ _ _ 6 6 _ _ _ _ _ _ _ _ _ _ _
    (exUserMark_wf _) (exUserMark_wf _) ct.disk ct.pandora ct.keeps exStay_bounds exStay_reads (sumOf_finite _) cfg cfg'
    (fun left right i => by obtain ⟨rfl, rfl⟩ := exWorldImgs_images i; exact exHoled_data 9 _ (fun _ _ => 0) (fun _ _ => 0)) h1 h2
  obtain ⟨f1, _, o1, e1⟩ := exMark_pixel 1 cfg h1
  obtain ⟨f2, _, o2, e2⟩ := exMark_pixel (-9999) cfg' h2
  rw [o1] at o
  rw [o2] at o'
  obtain ⟨rfl, -⟩ : f1 = files ∧ _ := by simpa using o
  obtain ⟨rfl, -⟩ : f2 = files' ∧ _ := by simpa using o'
  have := key 1 2 1 2 1 2 rfl rfl rfl rfl (by decide) (by decide)
  rw [e1, e2] at this
  norm_num at this

end Verif.Props
