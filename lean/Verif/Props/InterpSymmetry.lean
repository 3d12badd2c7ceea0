import Verif.Props.InterpLocal
import Verif.Props.NoDataRefined
import Verif.Props.Radiometry

/-!
# C146 and C147: radiometry and no-data values with an interpolation
-/

namespace Verif.Props

open Verif Verif.Config Verif.Machine Verif.ImgTools Verif.MatchingCost Verif.Disparity Verif.Run Verif.Main Verif.Spec Verif.Save
  Verif.Statistics Verif.Interpolation

set_option linter.unusedSectionVars false

variable {K : Type} [Field K] [LinearOrder K] [IsStrictOrderedRing K] [FloorRing K]

/-- Two executions with an interpolation and the same costs write the same values at the pixels they share. -/
theorem interpolated_agree (w w' : World K) (user user' p p' mc mc' inp inp' l r l' r' f f' : Fields) (out out' : List (Written K)) (H W : Nat)
    (dRow dCol dRow' dCol' : Disp) (sr sc sr' sc' : Nat) (invalid : F K) (n hw : Nat) (me : Measure) (ker : List (F K × F K) → F K)
    (wf : user.wf) (wf' : user'.wf)
    (hdisk : DiskContract w H W) (hpan : PandoraContract w) (hkeeps : PandoraKeeps w.pandora) (hzoom : w.run.zoom = zoomLinear)
    (hdisk' : DiskContract w' H W) (hpan' : PandoraContract w') (hkeeps' : PandoraKeeps w'.pandora) (hzoom' : w'.run.zoom = zoomLinear)
    (hext : w'.run.interp = w.run.interp) (hb : BoundsContract w.run.interp) (he : ReadsInside w.run.interp)
    (cfg : Interpolated w user p mc inp l r f H W dRow dCol sr sc invalid n hw me ker)
    (cfg' : Interpolated w' user' p' mc' inp' l' r' f' H W dRow' dCol' sr' sc' invalid n hw me ker)
    (ir : ∀ x < H, ∀ y < W, SameIntervalMoved dRow dRow' x y x y) (ic : ∀ x < H, ∀ y < W, SameIntervalMoved dCol dCol' x y x y)
    (hcost : ∀ left right left' right', ImagesRead w l r none left right → ImagesRead w' l' r' none left' right' →
      ((left.h = H ∧ left.w = W) ∧ right.h = H ∧ right.w = W) → ((left'.h = H ∧ left'.w = W) ∧ right'.h = H ∧ right'.w = W) → 0 < n →
      ∀ a < H, ∀ b < W, ∀ (gmin gmax gmin' gmax' : Arr2 Int) (x y : K), (∃ k : Int, x * (n : K) = (k : K)) → (∃ k : Int, y * (n : K) = (k : K)) →
      ((gmin.get a b : K) ≤ y ∧ y ≤ (gmax.get a b : K)) → ((gmin'.get a b : K) ≤ y ∧ y ≤ (gmax'.get a b : K)) →
      Pandora.windowCost hw ker left' (slabImg zoomLinear right' n x) gmin' gmax' a b y =
        Pandora.windowCost hw ker left (slabImg zoomLinear right n x) gmin gmax a b y)
    (h : Main.main w user = (out, none)) (h' : Main.main w' user' = (out', none)) :
    ∃ files rest files' rest', out = .rasters files :: rest ∧ out' = .rasters files' :: rest' ∧
      (∀ f ∈ [files.row, files.col, files.score], (∀ i, i < f.h ↔ i * sr < H) ∧ ∀ j, j < f.w ↔ j * sc < W) ∧
      (∀ f ∈ [files'.row, files'.col, files'.score], (∀ i, i < f.h ↔ i * sr' < H) ∧ ∀ j, j < f.w ↔ j * sc' < W) ∧
      ∀ i j i' j' : Nat, i * sr = i' * sr' → j * sc = j' * sc' → i * sr < H → j * sc < W →
        files'.row.values i' j' = files.row.values i j ∧ files'.col.values i' j' = files.col.values i j ∧
          files'.score.values i' j' = files.score.values i j := by
  obtain ⟨s⟩ := interpolated_stages cfg wf hpan h
  obtain ⟨s'⟩ := interpolated_stages cfg' wf' hpan' h'
  obtain ⟨hn, im, sl, o, z, ax, ay, fr, lr, fc, lc, gmin, gmax, ⟨x1, x2⟩, ⟨fy, fx⟩, hg, key⟩ := s.interpolated cfg wf hdisk hkeeps hb
  obtain ⟨-, im', sl', o', z', ax', ay', fr', lr', fc', lc', gmin', gmax', ⟨x1', x2'⟩, ⟨fy', fx'⟩, hg', key'⟩ :=
    s'.interpolated cfg' wf' hdisk' hkeeps' (by rw [hext]; exact hb)
  obtain ⟨rfl, rfl⟩ := extent_same sl.1 sl'.1 o o' ir x1 x1'
  obtain ⟨rfl, rfl⟩ := extent_same sl.1 sl'.1 o o' ic x2 x2'
  rw [hzoom] at key
  rw [hzoom', hext] at key'
  have hc := hcost _ _ _ _ im im' sl sl' hn
  refine ⟨s.files, _, s'.files, _, s.outIs, s'.outIs, z, z', fun i j i' j' ea eb ha hb => ?_⟩
  obtain ⟨r0, c0, s0, b1, p1⟩ := key i j _ _ rfl rfl ha hb
  obtain ⟨r1, c1, s1, b2, p2⟩ := key' i' j' _ _ ea eb ha hb
  generalize i * sr = a at *
  generalize j * sc = b at *
  obtain ⟨g1, g2⟩ := hg a ha b hb
  obtain ⟨g1', g2'⟩ := hg' a ha b hb
  obtain ⟨u1, u2⟩ := ir a ha b hb
  obtain ⟨v1, v2⟩ := ic a ha b hb
  have eg : gmin'.get a b = gmin.get a b ∧ gmax'.get a b = gmax.get a b := by
    rw [g1, g2, g1', g2']; omega
  have costs : ∀ x y : K, (∃ k : Int, x * (n : K) = (k : K)) → (∃ k : Int, y * (n : K) = (k : K)) →
      Pandora.windowCost hw ker s'.left.img (slabImg zoomLinear s'.right.img n x) gmin' gmax' a b y =
      Pandora.windowCost hw ker s.left.img (slabImg zoomLinear s.right.img n x) gmin gmax a b y := by
    intro x y hkx hky
    by_cases hy : (gmin.get a b : K) ≤ y ∧ y ≤ (gmax.get a b : K)
    · exact hc a ha b hb _ _ _ _ x y hkx hky hy (by rw [eg.1, eg.2]; exact hy)
    · have t : ¬ Pandora.windowOk hw s.left.img (slabImg zoomLinear s.right.img n x) gmin gmax a b y := fun q => hy q.2.2.1
      have t' : ¬ Pandora.windowOk hw s'.left.img (slabImg zoomLinear s'.right.img n x) gmin' gmax' a b y := fun q => hy (by
        have := q.2.2.1
        rw [eg.1, eg.2] at this
        exact this)
      unfold Pandora.windowCost
      rw [if_neg t, if_neg t']
  have hask : ∀ x y : K, AskedPair dRow' dCol' n a b x y ↔ AskedPair dRow dCol n a b x y := fun x y => by
    unfold AskedPair
    rw [← u1, ← u2, ← v1, ← v2]
  have b2' : BestPair me (AskedPair dRow dCol n a b)
      (fun x y => Pandora.windowCost hw ker s.left.img (slabImg zoomLinear s.right.img n x) gmin gmax a b y) invalid r1 c1 s1 := by
    refine best_congr (fun x y q => costs x y ?_ ?_) (best_asked hask b2)
    · obtain ⟨⟨k, -, hk, -⟩, -⟩ := q
      exact ⟨k, hk⟩
    · obtain ⟨⟨-, k, -, hk⟩, -⟩ := q
      exact ⟨k, hk⟩
  obtain ⟨rfl, rfl, -⟩ := BestPair.unique b1 b2'
  refine interp_same he (lattice_same hn fx fx') (lattice_same hn fy fy') ⟨fx.pos, fy.pos⟩ (fun i hi j hj => ⟨?_, ?_⟩) p1 p2
  · unfold ReadDisp
    rw [← u1, ← u2, ← v1, ← v2]
  · exact costs _ _ (lattice_points hn fy hj) (lattice_points hn fx hi)

/-- C146: brightness and contrast with an interpolation. Two successful executions on full images, without estimation, with the same subpixel factor,
window cost, intervals and invalid value, whatever their steps: the values of the left image of the second are those of the first seen through `gl`,
those of its right image, and its no-data value, are multiplied by `kr > 0` and shifted by `cr`, with the same flags, and the measure of windows so
seen is the same. At each pixel they share the disparities and the scores are the same. -/
theorem C146_brightness_interpolation (w w' : World K) (user user' p p' mc mc' inp inp' l r l' r' f f' : Fields) (out out' : List (Written K)) (H W : Nat)
    (dRow dCol dRow' dCol' : Disp) (sr sc sr' sc' : Nat) (invalid : F K) (n hw : Nat) (me : Measure) (ker : List (F K × F K) → F K)
    (gl : F K → F K) (kr cr : K) (wf : user.wf) (wf' : user'.wf)
    (hdisk : DiskContract w H W) (hpan : PandoraContract w) (hkeeps : PandoraKeeps w.pandora) (hzoom : w.run.zoom = zoomLinear)
    (hdisk' : DiskContract w' H W) (hpan' : PandoraContract w') (hkeeps' : PandoraKeeps w'.pandora) (hzoom' : w'.run.zoom = zoomLinear)
    (hext : w'.run.interp = w.run.interp) (hb : BoundsContract w.run.interp) (he : ReadsInside w.run.interp)
    (cfg : Interpolated w user p mc inp l r f H W dRow dCol sr sc invalid n hw me ker)
    (cfg' : Interpolated w' user' p' mc' inp' l' r' f' H W dRow' dCol' sr' sc' invalid n hw me ker)
    (hkr : 0 < kr) (hm : ∀ l, ker (l.map (Prod.map gl (affine kr cr))) = ker l)
    (himg : ∀ left right left' right', ImagesRead w l r none left right → ImagesRead w' l' r' none left' right' →
      Regraded gl left left' ∧ Regraded (affine kr cr) right right')
    (ir : ∀ x < H, ∀ y < W, SameIntervalMoved dRow dRow' x y x y) (ic : ∀ x < H, ∀ y < W, SameIntervalMoved dCol dCol' x y x y)
    (h : Main.main w user = (out, none)) (h' : Main.main w' user' = (out', none)) :
    ∃ files rest files' rest', out = .rasters files :: rest ∧ out' = .rasters files' :: rest' ∧
      (∀ f ∈ [files.row, files.col, files.score], (∀ i, i < f.h ↔ i * sr < H) ∧ ∀ j, j < f.w ↔ j * sc < W) ∧
      (∀ f ∈ [files'.row, files'.col, files'.score], (∀ i, i < f.h ↔ i * sr' < H) ∧ ∀ j, j < f.w ↔ j * sc' < W) ∧
      ∀ i j i' j' : Nat, i * sr = i' * sr' → j * sc = j' * sc' → i * sr < H → j * sc < W →
        files'.row.values i' j' = files.row.values i j ∧ files'.col.values i' j' = files.col.values i j ∧
          files'.score.values i' j' = files.score.values i j := by
  refine interpolated_agree w w' user user' p p' mc mc' inp inp' l r l' r' f f' out out' H W dRow dCol dRow' dCol' sr sc sr' sc' invalid n hw me ker
    wf wf' hdisk hpan hkeeps hzoom hdisk' hpan' hkeeps' hzoom' hext hb he cfg cfg' ir ic ?_ h h'
  intro left right left' right' im im' sl sl' hn a ha b hb gmin gmax gmin' gmax' x y hx _ hy hy'
  obtain ⟨gl', gr'⟩ := himg _ _ _ _ im im'
  exact window_seen (φ := id) hkr ⟨⟨by omega, by omega⟩, by omega, by omega⟩ (by omega) hy hy' gl' gr'
    (slab_displaced right n hn x hx) (slab_displaced right' n hn x hx) ⟨hm, fun _ => Iff.rfl, fun _ _ => rfl⟩

/-- C147: the values of the no-data pixels do not matter with an interpolation which starts from disparities of whole pixels. Two successful executions
on full images, without estimation, with the same window cost, intervals and invalid value, whatever their steps. The left images have the same masks and
only differ by the values of the pixels flagged as no-data. The right images have each a no-data value, held by the same pixels, and the other pixels
are equal. At each pixel they share the disparities and the scores are the same. -/
theorem C147_nodata_value_interpolation (w w' : World K) (user user' p p' mc mc' inp inp' l r l' r' f f' : Fields) (out out' : List (Written K)) (H W : Nat)
    (dRow dCol dRow' dCol' : Disp) (sr sc sr' sc' : Nat) (invalid : F K) (hw : Nat) (me : Measure) (ker : List (F K × F K) → F K)
    (wf : user.wf) (wf' : user'.wf)
    (hdisk : DiskContract w H W) (hpan : PandoraContract w) (hkeeps : PandoraKeeps w.pandora) (hzoom : w.run.zoom = zoomLinear)
    (hdisk' : DiskContract w' H W) (hpan' : PandoraContract w') (hkeeps' : PandoraKeeps w'.pandora) (hzoom' : w'.run.zoom = zoomLinear)
    (hext : w'.run.interp = w.run.interp) (hb : BoundsContract w.run.interp) (he : ReadsInside w.run.interp)
    (cfg : Interpolated w user p mc inp l r f H W dRow dCol sr sc invalid 1 hw me ker)
    (cfg' : Interpolated w' user' p' mc' inp' l' r' f' H W dRow' dCol' sr' sc' invalid 1 hw me ker)
    (hnd : ∀ left right, ImagesRead w l r none left right → right.noData ≠ .nan)
    (hnd' : ∀ left right, ImagesRead w' l' r' none left right → right.noData ≠ .nan)
    (himg : ∀ left right left' right', ImagesRead w l r none left right → ImagesRead w' l' r' none left' right' →
      OtherFlagged left left' ∧ OtherNoData right right')
    (ir : ∀ x < H, ∀ y < W, SameIntervalMoved dRow dRow' x y x y) (ic : ∀ x < H, ∀ y < W, SameIntervalMoved dCol dCol' x y x y)
    (h : Main.main w user = (out, none)) (h' : Main.main w' user' = (out', none)) :
    ∃ files rest files' rest', out = .rasters files :: rest ∧ out' = .rasters files' :: rest' ∧
      (∀ f ∈ [files.row, files.col, files.score], (∀ i, i < f.h ↔ i * sr < H) ∧ ∀ j, j < f.w ↔ j * sc < W) ∧
      (∀ f ∈ [files'.row, files'.col, files'.score], (∀ i, i < f.h ↔ i * sr' < H) ∧ ∀ j, j < f.w ↔ j * sc' < W) ∧
      ∀ i j i' j' : Nat, i * sr = i' * sr' → j * sc = j' * sc' → i * sr < H → j * sc < W →
        files'.row.values i' j' = files.row.values i j ∧ files'.col.values i' j' = files.col.values i j ∧
          files'.score.values i' j' = files.score.values i j := by
  refine interpolated_agree w w' user user' p p' mc mc' inp inp' l r l' r' f f' out out' H W dRow dCol dRow' dCol' sr sc sr' sc' invalid 1 hw me ker
    wf wf' hdisk hpan hkeeps hzoom hdisk' hpan' hkeeps' hzoom' hext hb he cfg cfg' ir ic ?_ h h'
  rintro left right left' right' im im' sl sl' hn a ha b hb gmin gmax gmin' gmax' x y ⟨kx, hx⟩ ⟨ky, hy⟩ g g'
  obtain ⟨tl, tr⟩ := himg _ _ _ _ im im'
  rw [Nat.cast_one, mul_one] at hx hy
  subst hx hy
  rw [slab_int, slab_int, window_whole (hnd _ _ im) ⟨Int.cast_le.1 g.1, Int.cast_le.1 g.2⟩,
    window_whole (hnd' _ _ im') ⟨Int.cast_le.1 g'.1, Int.cast_le.1 g'.2⟩, wholeCost_nodata tl tr (by omega) (by omega)]

/-! ## Examples -/

theorem sad_shift (c : ℚ) (l : List (F ℚ × F ℚ)) : sad (l.map (Prod.map (affine 1 c) (affine 1 c))) = sad l := by
  rw [(sad_affine c (k := 1) (by norm_num)).measure]
  cases sad l <;> simp [F.mul]

/-- An image brighter by one, with its no-data value. -/
def exBrighter (f : Nat → Nat → F ℚ) : Img ℚ := { exImgSix (fun x y => affine 1 1 (f x y)) with noData := .fin 0 }

theorem exBrighter_seen (f : Nat → Nat → F ℚ) : Regraded (affine 1 1) (exImgSix f) (exBrighter f) := by
  have e : affine 1 1 (.fin (-1) : F ℚ) = .fin 0 := by
    simp [affine, F.mul, F.add]
  refine ⟨e.symm, fun _ _ _ _ => rfl, fun x _ y _ h => ?_, fun _ _ _ _ => rfl, fun _ _ _ _ => rfl⟩
  have h : affine 1 1 (f x y) = affine 1 1 (.fin (-1)) := h
  show f x y = .fin (-1)
  rw [e] at h
  cases hv : f x y <;> rw [hv] at h <;> simp [affine, F.mul, F.add] at h ⊢
  linarith

/-- Whatever the images: both brighter by one, or not. -/
example (fl fr : Nat → Nat → F ℚ) : ∃ files rest files' rest',
    Main.main (exWorldImgs (exImgSix fl) (exImgSix fr)) exUserSmooth = (.rasters files :: rest, none) ∧
    Main.main (exWorldImgs (exBrighter fl) (exBrighter fr)) exUserSmooth = (.rasters files' :: rest', none) ∧
    ∀ i < 6, ∀ j < 6, files'.row.values i j = files.row.values i j ∧ files'.col.values i j = files.col.values i j ∧
      files'.score.values i j = files.score.values i j := by
  obtain ⟨_, _, _, _, cfg⟩ := exSmooth_cfg (exImgSix fl) (exImgSix fr)
  obtain ⟨_, _, _, _, cfg'⟩ := exSmooth_cfg (exBrighter fl) (exBrighter fr)
  have sz : ∀ f, exSized (exImgSix f) := fun f => ⟨⟨rfl, rfl⟩, rfl, rfl⟩
  have sz' : ∀ f, exSized (exBrighter f) := fun f => ⟨⟨rfl, rfl⟩, rfl, rfl⟩
  have ct := exWorldImgs_contract (sz fl) (sz fr)
  have ct' := exWorldImgs_contract (sz' fl) (sz' fr)
  have h1 := exSmooth_runs (sz fl) (sz fr)
  have h2 := exSmooth_runs (sz' fl) (sz' fr)
  obtain ⟨files, rest, files', rest', o, o', -, -, key⟩ := C146_brightness_interpolation _ _ _ _ _ _ _ _ _ _ _ _ _ _ _ _ _ _ 6 6
    _ _ _ _ _ _ _ _ _ _ _ _ _ (affine 1 1) 1 1 exUserSmooth_wf exUserSmooth_wf ct.disk ct.pandora ct.keeps rfl ct'.disk ct'.pandora ct'.keeps rfl
    rfl exI_bounds exI_reads cfg cfg' (by norm_num) (sad_shift 1) (fun left right left' right' i i' => by
      obtain ⟨rfl, rfl⟩ := exWorldImgs_images i
      obtain ⟨rfl, rfl⟩ := exWorldImgs_images i'
      exact ⟨exBrighter_seen fl, exBrighter_seen fr⟩) (fun _ _ _ _ => ⟨rfl, rfl⟩) (fun _ _ _ _ => ⟨rfl, rfl⟩) h1 h2
  exact ⟨files, rest, files', rest', by rw [h1]; exact congrArg (·, none) o, by rw [h2]; exact congrArg (·, none) o',
    fun i hi j hj => key i j i j rfl rfl (by omega) (by omega)⟩

/-- Whatever the flagged left value and whatever the no-data value of the right image, which is not one of its values. -/
example (v v' : F ℚ) (nd nd' : ℚ) (hole : Nat → Nat → Bool) (fl fr : Nat → Nat → F ℚ) (h : ∀ x y, fr x y ≠ .fin nd) (h' : ∀ x y, fr x y ≠ .fin nd') :
    ∃ files rest files' rest',
    Main.main (exWorldImgs (exFlagged v fl) (exHoled (.fin nd) hole fr)) exUserSmooth = (.rasters files :: rest, none) ∧
    Main.main (exWorldImgs (exFlagged v' fl) (exHoled (.fin nd') hole fr)) exUserSmooth = (.rasters files' :: rest', none) ∧
    ∀ a < 6, ∀ b < 6, files'.row.values a b = files.row.values a b ∧ files'.col.values a b = files.col.values a b ∧
      files'.score.values a b = files.score.values a b := by
  have sl : ∀ v, exSized (exFlagged v fl) := fun _ => ⟨⟨rfl, rfl⟩, rfl, rfl⟩
  have sr : ∀ nd, exSized (exHoled nd hole fr) := fun _ => ⟨⟨rfl, rfl⟩, rfl, rfl⟩
  obtain ⟨_, _, _, _, cfg⟩ := exSmooth_cfg (exFlagged v fl) (exHoled (.fin nd) hole fr)
  obtain ⟨_, _, _, _, cfg'⟩ := exSmooth_cfg (exFlagged v' fl) (exHoled (.fin nd') hole fr)
  have ct := exWorldImgs_contract (sl v) (sr (.fin nd))
  have ct' := exWorldImgs_contract (sl v') (sr (.fin nd'))
  have h1 := exSmooth_runs (sl v) (sr (.fin nd))
  have h2 := exSmooth_runs (sl v') (sr (.fin nd'))
  obtain ⟨files, rest, files', rest', o, o', -, -, key⟩ := C147_nodata_value_interpolation _ _ _ _ _ _ _ _ _ _ _ _ _ _ _ _ _ _ 6 6
    _ _ _ _ _ _ _ _ _ _ _ _ exUserSmooth_wf exUserSmooth_wf ct.disk ct.pandora ct.keeps rfl ct'.disk ct'.pandora ct'.keeps rfl
    rfl exI_bounds exI_reads cfg cfg'
    (fun left right i => by obtain ⟨rfl, rfl⟩ := exWorldImgs_images i; simp [exHoled])
    (fun left right i => by obtain ⟨rfl, rfl⟩ := exWorldImgs_images i; simp [exHoled])
    (fun left right left' right' i i' => by
      obtain ⟨rfl, rfl⟩ := exWorldImgs_images i
      obtain ⟨rfl, rfl⟩ := exWorldImgs_images i'
      exact exOther _ _ _ _ _ _ _ h h') (fun _ _ _ _ => ⟨rfl, rfl⟩) (fun _ _ _ _ => ⟨rfl, rfl⟩) h1 h2
  exact ⟨files, rest, files', rest', by rw [h1]; exact congrArg (·, none) o, by rw [h2]; exact congrArg (·, none) o',
    fun i hi j hj => key i j i j rfl rfl (by omega) (by omega)⟩

end Verif.Props
