import Verif.Props.FlowNoData
import Verif.Props.RefinedGiven

/-!
# C154 with an optical flow
-/

namespace Verif.Props

open Verif Verif.Config Verif.Machine Verif.ImgTools Verif.MatchingCost Verif.Disparity Verif.Run Verif.Main Verif.Spec Verif.Save
  Verif.Statistics Verif.OpticalFlow

set_option linter.unusedSectionVars false

variable {K : Type} [Field K] [LinearOrder K] [IsStrictOrderedRing K] [FloorRing K]

/-- C154, with an optical flow which starts from disparities of whole pixels, for the scores. For every successful execution on full images, without
estimation, with a window cost which is a number for finite values and NaN as the invalid value: a pixel has a score exactly when two windows displaced by a
pair of its intervals can be compared; otherwise it has no disparities either. Missing: a pixel with a score may have no refined disparities
(`C154_flow_false`), and other invalid values. -/
theorem C154_given_flow_partial (w : World K) (user p mc inp l r f : Fields) (out : List (Written K)) (H W : Nat) (dRow dCol : Disp)
    (sr sc hw : Nat) (me : Measure) (ker : List (F K × F K) → F K) (it half : Nat) (wf : user.wf)
    (hdisk : DiskContract w H W) (hpan : PandoraContract w) (hkeeps : PandoraKeeps w.pandora) (hoff : OffsetContract w) (hk : FiniteKernel ker)
    (cfg : Flowed w user p mc inp l r f H W dRow dCol sr sc .nan 1 hw me ker it half)
    (hdata : ∀ left right, ImagesRead w l r none left right → FiniteData left ∧ right.noData ≠ .nan ∧
      ∀ x < right.h, ∀ y < right.w, right.im x y ≠ right.noData → ∃ k, right.im x y = .fin k)
    (h : Main.main w user = (out, none)) :
    ∃ files rest left right, out = .rasters files :: rest ∧ ImagesRead w l r none left right ∧
      (∀ f ∈ [files.row, files.col, files.score], (∀ i, i < f.h ↔ i * sr < H) ∧ ∀ j, j < f.w ↔ j * sc < W) ∧
      ∀ i < files.row.h, ∀ j < files.row.w,
        (files.score.values i j ≠ .nan ↔ ∃ u v, InIntervals dRow dCol ((i * sr : Nat) : Int) ((j * sc : Nat) : Int) u v ∧
          Comparable hw left right (i * sr) (j * sc) u v) ∧
        (files.score.values i j = .nan → files.row.values i j = .nan ∧ files.col.values i j = .nan) := by
  obtain ⟨-, files, rest, left, right, o, im, -, -, z, key⟩ := flow_rasters cfg wf hdisk hpan hkeeps hoff h
  obtain ⟨hfl, hnd, hfr⟩ := hdata _ _ im
  refine ⟨files, rest, left, right, o, im, z, fun i hi j hj => ?_⟩
  obtain ⟨gmin, gmax, g, r0, c0, b1, p1, q1⟩ := key i hi j hj
  have exists_ : ∀ u v : Int, initAt dCol ((i * sr : Nat) : Int) ((j * sc : Nat) : Int) - dCol.range ≤ v →
      v ≤ initAt dCol ((i * sr : Nat) : Int) ((j * sc : Nat) : Int) + dCol.range →
      (Pandora.windowCost hw ker left (slabImg w.run.zoom right 1 (u : K)) gmin gmax (i * sr) (j * sc) (v : K) ≠ .nan ↔
        Comparable hw left right (i * sr) (j * sc) u v) := by
    intro u v h1 h2
    obtain ⟨v1, v2⟩ := g (v : K) (Int.cast_le.2 h1) (Int.cast_le.2 h2)
    rw [slab_int]
    exact window_exists hk hnd hfl hfr ⟨Int.cast_le.1 v1, Int.cast_le.1 v2⟩
  by_cases he : ∃ u v, InIntervals dRow dCol ((i * sr : Nat) : Int) ((j * sc : Nat) : Int) u v ∧ Comparable hw left right (i * sr) (j * sc) u v
  · obtain ⟨u, v, ⟨⟨k1, k2⟩, k3, k4⟩, hc⟩ := id he
    have hs : files.score.values i j ≠ .nan := (b1.best ⟨(u : K), (v : K), ⟨⟨u, v, by simp, by simp⟩, ⟨Int.cast_le.2 k1, Int.cast_le.2 k2⟩,
      Int.cast_le.2 k3, Int.cast_le.2 k4⟩, (exists_ u v k3 k4).2 hc⟩).1.1
    exact ⟨⟨fun _ => he, fun _ => hs⟩, fun q => absurd q hs⟩
  · obtain ⟨rfl, rfl, e⟩ := b1.invalid (by
      rintro x y ⟨⟨kx, ky, hx, hy⟩, ⟨k1, k2⟩, k3, k4⟩
      rw [Nat.cast_one, mul_one] at hx hy
      subst hx hy
      have k1 := Int.cast_le.1 k1
      have k2 := Int.cast_le.1 k2
      have k3 := Int.cast_le.1 k3
      have k4 := Int.cast_le.1 k4
      by_contra hc
      exact he ⟨kx, ky, ⟨⟨k1, k2⟩, k3, k4⟩, (exists_ kx ky k3 k4).1 hc⟩)
    refine ⟨⟨fun q => absurd e q, fun q => absurd q he⟩, fun _ => ?_⟩
    by_cases inn : InnerPoint 0 H sr half ((i * sr : Nat) : Int) ∧ InnerPoint 0 W sc half ((j * sc : Nat) : Int)
    · exact flowPixel_nan (p1 inn)
    · exact q1 inn

/-! ## Example and disagreement -/

/-- Whatever the numbers of the images and the holes of the right one. -/
example (nd : ℚ) (hole : Nat → Nat → Bool) (fl fr : Nat → Nat → ℚ) : ∃ files rest,
    Main.main (exWorldImgs (exImgSix fun x y => .fin (fl x y)) (exHoled (.fin nd) hole fun x y => .fin (fr x y))) (exUserFlowFull 0 1) =
      (.rasters files :: rest, none) ∧
    ∀ a b : Nat, a < 6 → b < 6 → (files.score.values a b ≠ .nan ↔ ∃ u v : Int, (-1 ≤ u ∧ u ≤ 1) ∧ (-1 ≤ v ∧ v ≤ 1) ∧
      Comparable 1 (exImgSix fun x y => .fin (fl x y)) (exHoled (.fin nd) hole fun x y => .fin (fr x y)) a b u v) := by
  have sl : exSized (exImgSix fun x y => .fin (fl x y)) := ⟨⟨rfl, rfl⟩, rfl, rfl⟩
  have sr : exSized (exHoled (.fin nd) hole fun x y => .fin (fr x y)) := ⟨⟨rfl, rfl⟩, rfl, rfl⟩
  obtain ⟨_, _, _, _, cfg⟩ := exImgs_flowed (exImgSix fun x y => .fin (fl x y)) (exHoled (.fin nd) hole fun x y => .fin (fr x y)) 1
  have ct := exWorldImgs_contract sl sr
  have h1 := exImgs_runsFlow sl sr 1 (by decide +kernel)
  obtain ⟨files, rest, left, right, o, i, z, key⟩ := C154_given_flow_partial _ _ _ _ _ _ _ _ _ 6 6 _ _ _ _ _ _ _ _ _
    (exUserFlowFull_wf 0 1) ct.disk ct.pandora ct.keeps ct.offset (sumOf_finite _) cfg
    (fun left right i => by obtain ⟨rfl, rfl⟩ := exWorldImgs_images i; exact exHoled_data _ _ _ _) h1
  obtain ⟨rfl, rfl⟩ := exWorldImgs_images i
  obtain ⟨y1, y2⟩ := z _ List.mem_cons_self
  refine ⟨files, rest, by rw [h1]; exact congrArg (·, none) o, fun a b ha hb => ?_⟩
  rw [(key a ((y1 a).2 (by omega)) b ((y2 b).2 (by omega))).1]
  simp only [InIntervals, initAt, mul_one, zero_sub, zero_add, and_assoc]

/-- The full statement with an optical flow: a pixel has a refined row disparity exactly when two windows displaced by a pair of its intervals can be
compared. -/
def C154FlowStatement : Prop := ∀ (w : World ℚ) (user p mc inp l r f : Fields) (out : List (Written ℚ)) (H W : Nat) (dRow dCol : Disp)
    (sr sc hw : Nat) (me : Measure) (ker : List (F ℚ × F ℚ) → F ℚ) (it half : Nat), user.wf →
    DiskContract w H W → PandoraContract w → PandoraKeeps w.pandora → OffsetContract w → FiniteKernel ker →
    Flowed w user p mc inp l r f H W dRow dCol sr sc .nan 1 hw me ker it half → half ≤ hw →
    (∀ left right, ImagesRead w l r none left right → FiniteData left ∧ right.noData ≠ .nan ∧
      ∀ x < right.h, ∀ y < right.w, right.im x y ≠ right.noData → ∃ k, right.im x y = .fin k) →
    Main.main w user = (out, none) →
    ∃ files rest left right, out = .rasters files :: rest ∧ ImagesRead w l r none left right ∧
      ∀ i < files.row.h, ∀ j < files.row.w,
        (files.row.values i j ≠ .nan ↔ ∃ u v, InIntervals dRow dCol ((i * sr : Nat) : Int) ((j * sc : Nat) : Int) u v ∧
          Comparable hw left right (i * sr) (j * sc) u v)

theorem exTall_data : FiniteData (exImgSix exHill) ∧ (exHoled (.fin (-9)) (exTall 4) exHillDown).noData ≠ .nan ∧
    ∀ x < 6, ∀ y < 6, (exHoled (.fin (-9)) (exTall 4) exHillDown).im x y ≠ (exHoled (.fin (-9)) (exTall 4) exHillDown).noData →
      ∃ k, (exHoled (.fin (-9)) (exTall 4) exHillDown).im x y = .fin k := by
  refine ⟨fun x _ y _ _ => ⟨_, rfl⟩, by simp [exHoled], fun x _ y _ _ => ?_⟩
  simp only [exHoled, exImgSix, exHillDown]
  split_ifs
  · exact ⟨_, rfl⟩
  · exact ⟨_, rfl⟩
  · exact ⟨_, rfl⟩

/-- The best pair of a pixel is at the end of its row interval: it has a score of 0, and no refined disparity. -/
theorem C154_flow_false : ¬ C154FlowStatement := by
  intro hst
  have sl : exSized (exImgSix exHill) := ⟨⟨rfl, rfl⟩, rfl, rfl⟩
  have sr : exSized (exHoled (.fin (-9)) (exTall 4) exHillDown) := ⟨⟨rfl, rfl⟩, rfl, rfl⟩
  obtain ⟨_, _, _, _, cfg⟩ := exImgs_flowed (exImgSix exHill) (exHoled (.fin (-9)) (exTall 4) exHillDown) 1
  have ct := exWorldImgs_contract sl sr
  have h1 := exImgs_runsFlow sl sr 1 (by decide +kernel)
  obtain ⟨files, rest, left, right, o, i, key⟩ := hst _ _ _ _ _ _ _ _ _ 6 6 _ _ _ _ _ _ _ _ _
    (exUserFlowFull_wf 0 1) ct.disk ct.pandora ct.keeps ct.offset (sumOf_finite _) cfg (by decide)
    (fun left right i => by obtain ⟨rfl, rfl⟩ := exWorldImgs_images i; exact exTall_data) h1
  obtain ⟨rfl, rfl⟩ := exWorldImgs_images i
  obtain ⟨f1, _, o1, ⟨z1, z2⟩, e⟩ := exTall_pixel 4 .nan (.inl ⟨rfl, rfl⟩) cfg h1
  rw [o1] at o
  obtain ⟨rfl, -⟩ : f1 = files ∧ _ := by simpa using o
  refine (key 2 z1 2 z2).2 ⟨1, 0, ⟨⟨by decide, by decide⟩, by decide, by decide⟩, ?_, fun _ _ _ _ _ _ => rfl, rfl, fun x y q1 q2 q3 q4 => ?_⟩ e
  · simp only [BothInside, exImgSix, exHoled]
    omega
  · have : exTall 4 x y = false := by
      simp only [exTall, Bool.not_eq_false', Bool.and_eq_true, decide_eq_true_eq]
      push_cast at q1 q2 q3 q4
      omega
    simp only [exHoled, exImgSix, this, Bool.false_eq_true, if_false, ne_eq]
    exact exHillDown_data x y

end Verif.Props
