import Verif.Props.InterpWider
import Verif.Props.Usable
import Verif.Spec.RefinedGiven

/-!
# C154: the pixels which receive refined disparities
-/

namespace Verif.Props

open Verif Verif.Config Verif.Machine Verif.ImgTools Verif.MatchingCost Verif.Disparity Verif.Run Verif.Main Verif.Spec Verif.Save
  Verif.Statistics Verif.Interpolation

set_option linter.unusedSectionVars false

variable {K : Type} [Field K] [LinearOrder K] [IsStrictOrderedRing K] [FloorRing K]

/-- The whole disparities read by an interpolation. -/
theorem widened_read {d : Disp} {f l r c v : Int} : InWidened d f l r c v ↔ ReadDisp (K := K) d f l r c (v : K) ∧
    ((initAt d r c - d.range ≤ v ∧ v ≤ initAt d r c + d.range) ∨ (f - 3 ≤ v ∧ v ≤ l + 3)) := by
  unfold InWidened ReadDisp
  rw [Int.cast_le, Int.cast_le, Int.cast_lt, Int.cast_lt]
  omega

/-- C154, with an interpolation which starts from disparities of whole pixels. For every successful execution on full images, without estimation, with a window
cost which is a number for finite values: `fr`, `lr`, `fc` and `lc` are the smallest and greatest disparities asked for all the pixels. A pixel has
two numbers when two windows displaced by a pair of disparities read by the interpolation for this pixel can be compared, and NaN three times otherwise.
Missing: the pairs read are not only those of the intervals of the pixel (`C154_false`). -/
theorem C154_given_interpolation_partial (w : World K) (user p mc inp l r f : Fields) (out : List (Written K)) (H W : Nat) (dRow dCol : Disp)
    (sr sc : Nat) (invalid : F K) (hw : Nat) (me : Measure) (ker : List (F K × F K) → F K) (wf : user.wf)
    (hdisk : DiskContract w H W) (hpan : PandoraContract w) (hkeeps : PandoraKeeps w.pandora) (hb : BoundsContract w.run.interp) (hk : FiniteKernel ker)
    (cfg : Interpolated w user p mc inp l r f H W dRow dCol sr sc invalid 1 hw me ker)
    (hdata : ∀ left right, ImagesRead w l r none left right → FiniteData left ∧ right.noData ≠ .nan ∧
      ∀ x < right.h, ∀ y < right.w, right.im x y ≠ right.noData → ∃ k, right.im x y = .fin k)
    (h : Main.main w user = (out, none)) :
    ∃ files rest left right, ∃ fr lr fc lc : Int, out = .rasters files :: rest ∧ ImagesRead w l r none left right ∧
      Extent dRow left fr lr ∧ Extent dCol left fc lc ∧
      (∀ f ∈ [files.row, files.col, files.score], (∀ i, i < f.h ↔ i * sr < H) ∧ ∀ j, j < f.w ↔ j * sc < W) ∧
      ∀ i j a b : Nat, a = i * sr → b = j * sc → a < H → b < W →
        InterpGiven (fun u v => InterpReads dRow dCol fr lr fc lc a b u v ∧ Comparable hw left right a b u v) fr lr fc lc
          (files.row.values i j) (files.col.values i j) (files.score.values i j) := by
  obtain ⟨s⟩ := interpolated_stages cfg wf hpan h
  obtain ⟨hn, im, ⟨sl, -⟩, o, z, ax, ay, fr, lr, fc, lc, gmin, gmax, ⟨x1, x2⟩, ⟨fy, fx⟩, hg, key⟩ := s.interpolated cfg wf hdisk hkeeps hb
  obtain ⟨hfl, hnd, hfr⟩ := hdata _ _ im
  refine ⟨s.files, _, s.left.img, s.right.img, fr, lr, fc, lc, s.outIs, im, x1, x2, z, fun i j a b ea eb ha hbW => ?_⟩
  obtain ⟨r0, c0, s0, -, pix⟩ := key i j a b ea eb ha hbW
  obtain ⟨g1, g2⟩ := hg a ha b hbW
  have i1 := x1.inside a (by omega) b (by omega)
  have i2 := x2.inside a (by omega) b (by omega)
  rw [o.1, o.2, zero_add, zero_add] at i1 i2
  have exists_ : ∀ x y : Int, gmin.get a b ≤ y ∧ y ≤ gmax.get a b →
      (Pandora.windowCost hw ker s.left.img (slabImg w.run.zoom s.right.img 1 (x : K)) gmin gmax a b (y : K) ≠ .nan ↔
        Comparable hw s.left.img s.right.img a b x y) := by
    intro x y hy
    rw [slab_int]
    exact window_exists hk hnd hfl hfr hy
  constructor
  · rintro ⟨u, v, ⟨q1, q2, q3⟩, q4⟩
    obtain ⟨q1, t1⟩ := (widened_read (K := K)).1 q1
    obtain ⟨q2, t2⟩ := (widened_read (K := K)).1 q2
    obtain ⟨m, hm, em, -⟩ := fx.complete v (by rw [Nat.cast_one, div_one, Int.cast_le]; omega) (by rw [Nat.cast_one, div_one, Int.cast_le]; omega)
    obtain ⟨k, hk', ek, -⟩ := fy.complete u (by rw [Nat.cast_one, div_one, Int.cast_le]; omega) (by rw [Nat.cast_one, div_one, Int.cast_le]; omega)
    rw [Nat.cast_one, div_one] at em ek
    have cell : Pandora.windowCost hw ker s.left.img (slabImg w.run.zoom s.right.img 1 (ay.get k)) gmin gmax a b (ax.get m) ≠ .nan := by
      rw [em, ek]
      exact (exists_ u v (by rw [g1, g2]; exact q3)).2 q4
    obtain ⟨_, surface, y, x, -, -, -, -, e1, e2, e3, -⟩ := pix.minimised ⟨m, hm, k, hk', ⟨by rw [ek]; exact q1, by rw [em]; exact q2⟩, cell⟩
    rw [fx.first, fx.last, fy.first, fy.last] at e1
    have bounds := hb surface (c0, r0) ((((fc - 3 : Int) : K), ((lc + 3 : Int) : K)), ((fr - 3 : Int) : K), ((lr + 3 : Int) : K))
      (lattice_ends fx) (lattice_ends fy)
    rw [e1] at bounds
    obtain ⟨t1, t2, t3, t4⟩ := bounds
    exact ⟨x, y, e3, e2, ⟨t3, t4⟩, t1, t2⟩
  · intro none
    refine pix.empty fun m hm k hk' q => ?_
    obtain ⟨kx, ex⟩ := lattice_points (by decide) fx hm
    obtain ⟨ky, ey⟩ := lattice_points (by decide) fy hk'
    rw [Nat.cast_one, mul_one] at ex ey
    have b1 := lattice_between fx hm
    have b2 := lattice_between fy hk'
    rw [ex, Int.cast_le, Int.cast_le] at b1
    rw [ey, Int.cast_le, Int.cast_le] at b2
    rw [ex, ey] at q ⊢
    by_contra hc
    have hy : gmin.get a b ≤ kx ∧ kx ≤ gmax.get a b := by
      by_contra hy
      refine hc ?_
      unfold Pandora.windowCost
      exact if_neg fun q => hy ⟨Int.cast_le.1 q.2.2.1.1, Int.cast_le.1 q.2.2.1.2⟩
    exact none ky kx ⟨⟨(widened_read (K := K)).2 ⟨q.1, .inr b2⟩, (widened_read (K := K)).2 ⟨q.2, .inr b1⟩, by omega⟩, (exists_ ky kx hy).1 hc⟩

/-- C154, with a dichotomy which starts from disparities of whole pixels. For every successful execution on full images, without estimation, with a window cost
which is a number for finite values: a pixel has two numbers of its intervals when two windows displaced by a pair of its intervals can be compared;
otherwise it has two invalid disparities and no score. -/
theorem C154_given_dichotomy (w : World K) (user p mc inp l r f : Fields) (out : List (Written K)) (H W : Nat) (dRow dCol : Disp)
    (invalid : F K) (hw : Nat) (me : Measure) (ker : List (F K × F K) → F K) (it : Nat) (g : Kernel K) (wf : user.wf)
    (hdisk : DiskContract w H W) (hpan : PandoraContract w) (hkeeps : PandoraKeeps w.pandora) (hzoom : w.run.zoom = zoomLinear) (hk : FiniteKernel ker)
    (cfg : Dichotomised w user p mc inp l r f H W dRow dCol invalid 1 hw me ker it g) (hHW : 2 ≤ H ∧ 2 ≤ W)
    (hdata : ∀ left right, ImagesRead w l r none left right → FiniteData left ∧ right.noData ≠ .nan ∧
      ∀ x < right.h, ∀ y < right.w, right.im x y ≠ right.noData → ∃ k, right.im x y = .fin k)
    (h : Main.main w user = (out, none)) :
    ∃ files rest left right, out = .rasters files :: rest ∧ ImagesRead w l r none left right ∧
      (∀ f ∈ [files.row, files.col, files.score], f.h = H ∧ f.w = W) ∧
      ∀ a < H, ∀ b < W, SearchGiven (Comparable hw left right a b) dRow dCol a b invalid (files.row.values a b) (files.col.values a b)
        (files.score.values a b) := by
  obtain ⟨s⟩ := dichotomised_stages cfg wf hpan h
  obtain ⟨k, fr, lr, fc, lc, gmin, gmax, hk', im, -, o, ⟨x1, x2⟩, hg, z, key⟩ := s.dichotomised cfg wf hdisk hkeeps hzoom hHW
  obtain rfl : k = 0 := by
    rcases Nat.eq_zero_or_pos k with q | q
    · exact q
    · have := Nat.one_lt_two_pow (n := k) (by omega)
      omega
  obtain ⟨hfl, hnd, hfr⟩ := hdata _ _ im
  refine ⟨s.files, _, s.left.img, s.right.img, s.outIs, im, z, fun a ha b hb => ?_⟩
  obtain ⟨r0, c0, s0, cost, e1, b1, p1⟩ := key a ha b hb
  obtain ⟨g1, g2⟩ := hg a ha b hb
  have exists_ : ∀ x y : Int, initAt dCol a b - dCol.range ≤ y ∧ y ≤ initAt dCol a b + dCol.range →
      (cost (x : K) (y : K) ≠ .nan ↔ Comparable hw s.left.img s.right.img a b x y) := by
    intro x y hy
    rw [e1, slab_int]
    exact window_exists hk hnd hfl hfr (by omega)
  constructor
  · rintro ⟨u, v, ⟨⟨q1, q2⟩, q3, q4⟩, q5⟩
    obtain ⟨x, y, hr, hc, ⟨y1, ask1, -⟩, ⟨x1, ask2, -⟩, -⟩ := b1.smallest ⟨(u : K), (v : K), ⟨⟨u, v, by simp, by simp⟩,
      ⟨Int.cast_le.2 q1, Int.cast_le.2 q2⟩, Int.cast_le.2 q3, Int.cast_le.2 q4⟩, (exists_ u v ⟨q3, q4⟩).2 q5⟩
    obtain ⟨⟨kx, -, hx, -⟩, r1, -⟩ := ask1
    obtain ⟨⟨-, ky, -, hy⟩, -, r2⟩ := ask2
    rw [Nat.cast_one, mul_one] at hx hy
    subst hx hy
    by_cases u : r0 = invalid ∨ c0 = invalid
    · obtain ⟨f1, f2, -⟩ := p1.unusable u
      exact ⟨_, _, f1.trans hr, f2.trans hc, r1, r2⟩
    · push Not at u
      by_cases t : (AtEnd (initAt dRow a b - dRow.range) (initAt dRow a b + dRow.range) r0 ∨
          AtEnd (initAt dCol a b - dCol.range) (initAt dCol a b + dCol.range) c0) ∨ seen dRow dCol fr lr fc lc a b cost kx ky = .nan
      · obtain ⟨f1, f2, -⟩ := p1.kept _ _ hr hc u.1 u.2 t
        exact ⟨_, _, f1.trans hr, f2.trans hc, r1, r2⟩
      · push Not at t
        obtain ⟨x', y', v', f1, f2, -, path⟩ := p1.searched _ _ hr hc u.1 u.2 (by rw [not_or]; exact t.1) t.2
        obtain ⟨n1, n2, -⟩ := path_near path (Nat.zero_le _) t.2
        have pos : (0 : K) < 1 / 2 ^ it := by positivity
        rw [pow_zero, div_one, abs_le] at n1 n2
        have inner : ∀ {lo hi m : Int} {z : K}, ¬ AtEnd lo hi (.fin (m : K)) → (lo : K) ≤ (m : K) ∧ (m : K) ≤ (hi : K) →
            -(1 - 1 / 2 ^ it) ≤ z - m ∧ z - m ≤ 1 - 1 / 2 ^ it → (lo : K) ≤ z ∧ z ≤ (hi : K) := by
          intro lo hi m z h1 h2 h3
          unfold AtEnd at h1
          simp only [F.fin.injEq, Int.cast_inj, not_or] at h1
          rw [Int.cast_le, Int.cast_le] at h2
          have h4 : (lo : K) + 1 ≤ (m : K) := by exact_mod_cast (show lo + 1 ≤ m by omega)
          have h5 : (m : K) + 1 ≤ (hi : K) := by exact_mod_cast (show m + 1 ≤ hi by omega)
          constructor <;> linarith
        refine ⟨_, _, f1, f2, inner (by rw [← hr]; exact t.1.1) r1 n1, inner (by rw [← hc]; exact t.1.2) r2 n2⟩
  · intro none
    obtain ⟨n1, n2, -⟩ := b1.invalid (by
      rintro x y ⟨⟨kx, ky, hx, hy⟩, ⟨q1, q2⟩, q3, q4⟩
      rw [Nat.cast_one, mul_one] at hx hy
      subst hx hy
      have q1 := Int.cast_le.1 q1
      have q2 := Int.cast_le.1 q2
      have q3 := Int.cast_le.1 q3
      have q4 := Int.cast_le.1 q4
      by_contra hc
      exact none kx ky ⟨⟨q1, q2⟩, q3, q4⟩ ((exists_ kx ky ⟨q3, q4⟩).1 hc))
    obtain ⟨m1, m2, m3⟩ := p1.unusable (.inl n1)
    exact ⟨m1.trans n1, m2.trans n2, m3⟩

/-! ## Examples and disagreement -/

/-- Images of numbers, with holes in the right one. -/
theorem exHoled_data (nd : ℚ) (hole : Nat → Nat → Bool) (fl fr : Nat → Nat → ℚ) :
    FiniteData (exImgSix fun x y => .fin (fl x y)) ∧ (exHoled (.fin nd) hole fun x y => .fin (fr x y)).noData ≠ .nan ∧
      ∀ x < 6, ∀ y < 6, (exHoled (.fin nd) hole fun x y => .fin (fr x y)).im x y ≠ (exHoled (.fin nd) hole fun x y => .fin (fr x y)).noData →
        ∃ k, (exHoled (.fin nd) hole fun x y => .fin (fr x y)).im x y = .fin k := by
  refine ⟨fun x _ y _ _ => ⟨_, rfl⟩, by simp [exHoled], fun x _ y _ _ => ?_⟩
  simp only [exHoled, exImgSix]
  split_ifs
  · exact ⟨_, rfl⟩
  · exact ⟨_, rfl⟩

/-- With an interpolation, whatever the numbers of the images and the holes of the right one. -/
example (nd : ℚ) (hole : Nat → Nat → Bool) (fl fr : Nat → Nat → ℚ) : ∃ files rest,
    Main.main (exWorldImgs (exImgSix fun x y => .fin (fl x y)) (exHoled (.fin nd) hole fun x y => .fin (fr x y))) exUserSmooth =
      (.rasters files :: rest, none) ∧
    ∀ a b : Nat, a < 6 → b < 6 → InterpGiven (fun u v => InterpReads ⟨.const 0, 0⟩ ⟨.const 0, 0⟩ 0 0 0 0 a b u v ∧
      Comparable 1 (exImgSix fun x y => .fin (fl x y)) (exHoled (.fin nd) hole fun x y => .fin (fr x y)) a b u v) 0 0 0 0
      (files.row.values a b) (files.col.values a b) (files.score.values a b) := by
  have sl : exSized (exImgSix fun x y => .fin (fl x y)) := ⟨⟨rfl, rfl⟩, rfl, rfl⟩
  have sr : exSized (exHoled (.fin nd) hole fun x y => .fin (fr x y)) := ⟨⟨rfl, rfl⟩, rfl, rfl⟩
  obtain ⟨_, _, _, _, cfg⟩ := exSmooth_cfg (exImgSix fun x y => .fin (fl x y)) (exHoled (.fin nd) hole fun x y => .fin (fr x y))
  have ct := exWorldImgs_contract sl sr
  have h1 := exSmooth_runs sl sr
  obtain ⟨files, rest, left, right, f1, l1, f2, l2, o, i, x1, x2, -, key⟩ := C154_given_interpolation_partial _ _ _ _ _ _ _ _ _ 6 6 _ _ _ _ _ _ _ _
    exUserSmooth_wf ct.disk ct.pandora ct.keeps exI_bounds (sumOf_finite _) cfg
    (fun left right i => by obtain ⟨rfl, rfl⟩ := exWorldImgs_images i; exact exHoled_data _ _ _ _) h1
  obtain ⟨rfl, rfl⟩ := exWorldImgs_images i
  obtain ⟨_, _, _, _, w1⟩ := x1.reached
  obtain ⟨_, _, _, _, w2⟩ := x1.reached'
  obtain ⟨_, _, _, _, w3⟩ := x2.reached
  obtain ⟨_, _, _, _, w4⟩ := x2.reached'
  obtain rfl : f1 = 0 := w1.symm
  obtain rfl : l1 = 0 := w2.symm
  obtain rfl : f2 = 0 := w3.symm
  obtain rfl : l2 = 0 := w4.symm
  exact ⟨files, rest, by rw [h1]; exact congrArg (·, none) o, fun a b ha hb => key a b a b (by omega) (by omega) ha hb⟩

/-- With a dichotomy. -/
example (nd : ℚ) (hole : Nat → Nat → Bool) (fl fr : Nat → Nat → ℚ) : ∃ files rest,
    Main.main (exWorldImgs (exImgSix fun x y => .fin (fl x y)) (exHoled (.fin nd) hole fun x y => .fin (fr x y))) (exUserBoxFull 0 1) =
      (.rasters files :: rest, none) ∧
    ∀ a < 6, ∀ b < 6, SearchGiven
      (Comparable 1 (exImgSix fun x y => .fin (fl x y)) (exHoled (.fin nd) hole fun x y => .fin (fr x y)) a b) ⟨.const 0, 1⟩ ⟨.const 0, 1⟩ a b .nan
      (files.row.values a b) (files.col.values a b) (files.score.values a b) := by
  have sl : exSized (exImgSix fun x y => .fin (fl x y)) := ⟨⟨rfl, rfl⟩, rfl, rfl⟩
  have sr : exSized (exHoled (.fin nd) hole fun x y => .fin (fr x y)) := ⟨⟨rfl, rfl⟩, rfl, rfl⟩
  obtain ⟨_, _, _, _, cfg⟩ := exImgs_dicho (exImgSix fun x y => .fin (fl x y)) (exHoled (.fin nd) hole fun x y => .fin (fr x y))
  have ct := exWorldImgs_contract sl sr
  have h1 := exImgs_runsDicho sl sr
  obtain ⟨files, rest, left, right, o, i, -, key⟩ := C154_given_dichotomy _ _ _ _ _ _ _ _ _ 6 6 _ _ _ _ _ _ _ _
    (exUserBoxFull_wf 0 1) ct.disk ct.pandora ct.keeps rfl (sumOf_finite _) cfg (by decide)
    (fun left right i => by obtain ⟨rfl, rfl⟩ := exWorldImgs_images i; exact exHoled_data _ _ _ _) h1
  obtain ⟨rfl, rfl⟩ := exWorldImgs_images i
  exact ⟨files, rest, by rw [h1]; exact congrArg (·, none) o, key⟩

/-- The full statement with an interpolation: a pixel has a disparity exactly when two windows displaced by a pair of its intervals can be compared. -/
def C154Statement : Prop := ∀ (w : World ℚ) (user p mc inp l r f : Fields) (out : List (Written ℚ)) (H W : Nat) (dRow dCol : Disp)
    (sr sc : Nat) (invalid : F ℚ) (hw : Nat) (me : Measure) (ker : List (F ℚ × F ℚ) → F ℚ), user.wf →
    DiskContract w H W → PandoraContract w → PandoraKeeps w.pandora → BoundsContract w.run.interp → FiniteKernel ker →
    Interpolated w user p mc inp l r f H W dRow dCol sr sc invalid 1 hw me ker →
    (∀ left right, ImagesRead w l r none left right → FiniteData left ∧ right.noData ≠ .nan ∧
      ∀ x < right.h, ∀ y < right.w, right.im x y ≠ right.noData → ∃ k, right.im x y = .fin k) →
    Main.main w user = (out, none) →
    ∃ files rest left right, out = .rasters files :: rest ∧ ImagesRead w l r none left right ∧
      ∀ i j a b : Nat, a = i * sr → b = j * sc → a < H → b < W →
        (files.row.values i j ≠ .nan ↔ ∃ u v, InIntervals dRow dCol a b u v ∧ Comparable hw left right a b u v)

/-- With an interpolation the costs of the margins count: with the row disparity zero and no data in the first three rows of the right image, the pixel
of row 1 and column 2 has a disparity, although no window displaced by a pair of its intervals holds data. -/
theorem C154_false : ¬ C154Statement := by
  intro hst
  have s1 : exSized exZeros := ⟨⟨rfl, rfl⟩, rfl, rfl⟩
  have s2 : exSized exLow := ⟨⟨rfl, rfl⟩, rfl, rfl⟩
  obtain ⟨_, _, _, _, cfg⟩ := exSmoothIn_cfg exZeros exLow (v := .int 0) (v' := .int 0) 0 (.inl ⟨0, .inl rfl, rfl⟩) (.inl ⟨0, .inl rfl, rfl⟩)
  have ct := exWorldRow_contract s1 s2
  have wf := exUserSmoothIn_wf (v := .int 0) (v' := .int 0) trivial trivial 0
  have h1 := exSmoothIn_runs s1 s2 (v := .int 0) (v' := .int 0) trivial trivial 0 (by decide +kernel)
  obtain ⟨files, rest, left, right, o, im, key⟩ := hst _ _ _ _ _ _ _ _ _ 6 6 _ _ _ _ _ _ _ _ wf ct.disk ct.pandora ct.keeps exI_bounds
    (sumOf_finite _) cfg
    (fun left right i => by
      obtain ⟨rfl, rfl⟩ : left = exZeros ∧ right = exLow := exWorldImgs_images i
      exact exHoled_data 9 (fun x _ => decide (x < 3)) (fun _ _ => 0) (fun _ _ => 0)) h1
  obtain ⟨rfl, rfl⟩ : left = exZeros ∧ right = exLow := exWorldImgs_images im
  obtain ⟨f1, _, fr, lr, o1, x1, k1⟩ := exLow_pixel (fun _ _ => rfl) cfg wf h1
  rw [o1] at o
  obtain ⟨rfl, -⟩ : f1 = files ∧ _ := by simpa using o
  obtain ⟨_, _, _, _, w1⟩ := x1.reached
  obtain ⟨_, _, _, _, w2⟩ := x1.reached'
  obtain rfl : fr = 0 := w1.symm
  obtain rfl : lr = 0 := w2.symm
  have n1 := (k1 (by omega) (by omega)).1 (.inr (.inr (by norm_num)))
  obtain ⟨u, v, ⟨q1, -⟩, q2⟩ := (key 1 2 1 2 rfl rfl (by decide) (by decide)).1 n1
  have e : u = 0 := by
    obtain ⟨q3, q4⟩ := q1
    simp only [initAt] at q3 q4
    omega
  subst e
  refine q2.values 0 (2 + v).toNat (by decide) (by decide) ?_ ?_ rfl
  · omega
  · obtain ⟨-, -, -, q5, q6⟩ := q2.inside
    omega

end Verif.Props
