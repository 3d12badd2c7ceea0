import Verif.Props.NoDataValue
import Verif.Props.RefinedSymmetry
import Verif.Props.FlowZones

/-!
# C137 and C138: the values of the no-data pixels with a refinement
-/

namespace Verif.Props

open Verif Verif.Config Verif.Machine Verif.ImgTools Verif.MatchingCost Verif.Disparity Verif.Run Verif.Main Verif.Spec Verif.Save
  Verif.Statistics Verif.OpticalFlow

set_option linter.unusedSectionVars false

variable {K : Type} [Field K] [LinearOrder K] [IsStrictOrderedRing K] [FloorRing K]

/-- The costs do not depend on the values of the no-data pixels. -/
theorem wholeCost_nodata {hw : Nat} {ker : List (F K × F K) → F K} {left right left' right' : Img K} {a b : Nat} {u v : Int}
    (hl : OtherFlagged left left') (hr : OtherNoData right right') (sl : left'.h = left.h ∧ left'.w = left.w)
    (sr : right'.h = right.h ∧ right'.w = right.w) : wholeCost hw ker left' right' a b u v = wholeCost hw ker left right a b u v := by
  unfold wholeCost
  by_cases h : Comparable hw left right a b u v
  · rw [if_pos h, if_pos ((comparable_nodata hl hr sl sr).2 h), pairs_nodata hl hr h]
  · rw [if_neg h, if_neg (mt (comparable_nodata hl hr sl sr).1 h)]

/-- C137: the values of the no-data pixels do not matter with a dichotomy which starts from disparities of whole pixels. Two successful executions on
full images, without estimation, with the same window cost, intervals, invalid value, iterations and kernel. The left images have the same masks and
only differ by the values of the pixels flagged as no-data. The right images have each a no-data value, held by the same pixels, and the other pixels
are equal. At each pixel the refined disparities and the score are the same. -/
theorem C137_nodata_value_dichotomy (w w' : World K) (user user' p p' mc mc' inp inp' l r l' r' f f' : Fields) (out out' : List (Written K))
    (H W : Nat) (dRow dCol dRow' dCol' : Disp) (invalid : F K) (hw : Nat) (me : Measure) (ker : List (F K × F K) → F K) (it : Nat) (g : Kernel K)
    (wf : user.wf) (wf' : user'.wf)
    (hdisk : DiskContract w H W) (hpan : PandoraContract w) (hkeeps : PandoraKeeps w.pandora) (hzoom : w.run.zoom = zoomLinear)
    (hdisk' : DiskContract w' H W) (hpan' : PandoraContract w') (hkeeps' : PandoraKeeps w'.pandora) (hzoom' : w'.run.zoom = zoomLinear)
    (cfg : Dichotomised w user p mc inp l r f H W dRow dCol invalid 1 hw me ker it g)
    (cfg' : Dichotomised w' user' p' mc' inp' l' r' f' H W dRow' dCol' invalid 1 hw me ker it g) (hHW : 2 ≤ H ∧ 2 ≤ W)
    (hnd : ∀ left right, ImagesRead w l r none left right → right.noData ≠ .nan)
    (hnd' : ∀ left right, ImagesRead w' l' r' none left right → right.noData ≠ .nan)
    (himg : ∀ left right left' right', ImagesRead w l r none left right → ImagesRead w' l' r' none left' right' →
      OtherFlagged left left' ∧ OtherNoData right right')
    (ir : ∀ x < H, ∀ y < W, SameIntervalMoved dRow dRow' x y x y) (ic : ∀ x < H, ∀ y < W, SameIntervalMoved dCol dCol' x y x y)
    (h : Main.main w user = (out, none)) (h' : Main.main w' user' = (out', none)) :
    ∃ files rest files' rest', out = .rasters files :: rest ∧ out' = .rasters files' :: rest' ∧
      (∀ f ∈ [files.row, files.col, files.score], f.h = H ∧ f.w = W) ∧ (∀ f ∈ [files'.row, files'.col, files'.score], f.h = H ∧ f.w = W) ∧
      ∀ a < H, ∀ b < W, files'.row.values a b = files.row.values a b ∧ files'.col.values a b = files.col.values a b ∧
        files'.score.values a b = files.score.values a b := by
  obtain ⟨s⟩ := dichotomised_stages cfg wf hpan h
  obtain ⟨s'⟩ := dichotomised_stages cfg' wf' hpan' h'
  obtain ⟨k, fr, lr, fc, lc, gmin, gmax, hk, im, ⟨sl, sr⟩, o, ⟨x1, x2⟩, hg, z, key⟩ := s.dichotomised cfg wf hdisk hkeeps hzoom hHW
  obtain ⟨k', fr', lr', fc', lc', gmin', gmax', hk', im', ⟨sl', sr'⟩, o', ⟨x1', x2'⟩, hg', z', key'⟩ :=
    s'.dichotomised cfg' wf' hdisk' hkeeps' hzoom' hHW
  obtain rfl : k' = k := Nat.pow_right_injective (le_refl 2) (hk'.symm.trans hk)
  obtain ⟨tl, tr⟩ := himg _ _ _ _ im im'
  have hnd1 := hnd _ _ im
  have hnd2 := hnd' _ _ im'
  obtain ⟨rfl, rfl⟩ := extent_same sl sl' o o' ir x1 x1'
  obtain ⟨rfl, rfl⟩ := extent_same sl sl' o o' ic x2 x2'
  refine ⟨s.files, _, s'.files, _, s.outIs, s'.outIs, z, z', fun a ha b hb => ?_⟩
  obtain ⟨r0, c0, s0, cost, e1, b1, p1⟩ := key a ha b hb
  obtain ⟨r1, c1, s1, cost', e2, b2, p2⟩ := key' a ha b hb
  obtain ⟨g1, g2⟩ := hg a ha b hb
  obtain ⟨g1', g2'⟩ := hg' a ha b hb
  refine searched_moved hk (ir a ha b hb) (ic a ha b hb) ?_ b1 p1 b2 p2
  obtain ⟨c1, c2⟩ := ic a ha b hb
  rintro x y ⟨⟨kx, ky, hx, hy⟩, -, u3, u4⟩
  rw [Nat.cast_one, mul_one] at hx hy
  subst hx hy
  have u3 := Int.cast_le.1 u3
  have u4 := Int.cast_le.1 u4
  rw [e1, e2, slab_int, slab_int, window_whole hnd1 (by rw [g1, g2]; exact ⟨u3, u4⟩),
    window_whole hnd2 (by rw [g1', g2', ← c1, ← c2]; exact ⟨u3, u4⟩), wholeCost_nodata tl tr (by omega) (by omega)]

/-- A refinement which starts from NaN ends with NaN. -/
theorem flowPixel_nan {e : Ext K} {half it : Nat} {left right : Img K} {r c lor hir loc hic : Int} {row col : F K}
    (p : FlowPixel e half it left right r c lor hir loc hic .nan .nan .nan row col) : row = .nan ∧ col = .nan := by
  obtain ⟨_, _, -, -, t, rfl, rfl, rfl⟩ := p
  have gone : ∀ (lo hi : Int) (t : F K), t = .nan → insideOr .nan lo hi t = .nan := by
    rintro lo hi _ rfl
    simp [insideOr]
  exact ⟨gone _ _ _ ((trajectory_nan _ _ _ _ _ _).1 rfl), gone _ _ _ ((trajectory_nan _ _ _ _ _ _).2 rfl)⟩

/-- The window of the right image for a whole disparity. -/
theorem startShift_whole {d s : Int} (h : StartShift (.nan : F K) (.fin (d : K)) s) : s = d := by
  rcases h with ⟨-, q | q⟩ | ⟨z, hz, -, m1, m2, m3⟩
  · exact absurd q (by simp)
  · exact absurd q (by simp)
  · rw [F.fin.injEq] at hz
    subst hz
    have m1 : |s| ≤ |d| := by exact_mod_cast m1
    have m2 : |d| < |s| + 1 := by exact_mod_cast m2
    have m3 : 0 ≤ s * d := by exact_mod_cast m3
    rcases abs_eq_abs.1 (show |s| = |d| by omega) with q | q
    · exact q
    · subst q
      have : d * d = 0 := by nlinarith [mul_self_nonneg d]
      rw [mul_self_eq_zero.1 this]
      rfl

/-- An asked pair with a score reaches it. -/
theorem costAt_reaches {hw : Nat} {ker : List (F K × F K) → F K} {left right : Img K} {dRow dCol : Disp} {a b : Nat} {s : F K} (hs : s ≠ .nan)
    {x' y' : K} (h : AskedPair dRow dCol 1 a b x' y') (hc : costAt hw ker left right a b x' y' = s) :
    ∃ x y : Int, x' = (x : K) ∧ y' = (y : K) ∧ Reaches hw ker left right dRow dCol a b s x y := by
  obtain ⟨⟨kx, ky, hx, hy⟩, ⟨u1, u2⟩, u3, u4⟩ := h
  rw [Nat.cast_one, mul_one] at hx hy
  subst hx hy
  rw [costAt, Int.floor_intCast, Int.floor_intCast] at hc
  unfold wholeCost at hc
  by_cases q : Comparable hw left right a b kx ky
  · rw [if_pos q] at hc
    exact ⟨kx, ky, rfl, rfl, ⟨⟨Int.cast_le.1 u1, Int.cast_le.1 u2⟩, Int.cast_le.1 u3, Int.cast_le.1 u4⟩, q, hc⟩
  · rw [if_neg q] at hc
    exact absurd hc.symm hs

/-- When one pair only reaches the score, any asked pair with this score is this one. -/
theorem costAt_reached {hw : Nat} {ker : List (F K × F K) → F K} {left right : Img K} {dRow dCol : Disp} {a b : Nat} {s : F K} {x y : Int}
    (only : ∀ x' y', Reaches hw ker left right dRow dCol a b s x' y' ↔ x' = x ∧ y' = y) (hs : s ≠ .nan) {x' y' : K}
    (h : AskedPair dRow dCol 1 a b x' y') (hc : costAt hw ker left right a b x' y' = s) : x' = (x : K) ∧ y' = (y : K) := by
  obtain ⟨kx, ky, rfl, rfl, q⟩ := costAt_reaches hs h hc
  obtain ⟨rfl, rfl⟩ := (only kx ky).1 q
  exact ⟨rfl, rfl⟩

/-- C138: the values of the no-data pixels do not matter with an optical flow. Two successful executions on full images, without estimation, with
disparities of whole pixels, the same steps, window cost, intervals, iterations and half window, at most the one of the cost, and NaN as the invalid
value. The left images have the same masks and only differ by the values of the pixels flagged as no-data. The right images have each a no-data value,
held by the same pixels, and the other pixels are equal. At each pixel the scores are the same, a pixel without a score has no refined disparities in
both, and the refined disparities are the same when only one pair of disparities reaches the score. Missing from the full claim: the pixels where several pairs reach the score, for which
it is false (`C138_false`), disparities of fractions of pixels and other invalid values. -/
theorem C138_nodata_value_flow_partial (w w' : World K) (user user' p p' mc mc' inp inp' l r l' r' f f' : Fields) (out out' : List (Written K))
    (H W : Nat) (dRow dCol dRow' dCol' : Disp) (sr sc : Nat) (hw : Nat) (me : Measure) (ker : List (F K × F K) → F K) (it half : Nat)
    (wf : user.wf) (wf' : user'.wf)
    (hdisk : DiskContract w H W) (hpan : PandoraContract w) (hkeeps : PandoraKeeps w.pandora) (hoff : OffsetContract w)
    (hzoom : w.run.zoom = zoomLinear)
    (hdisk' : DiskContract w' H W) (hpan' : PandoraContract w') (hkeeps' : PandoraKeeps w'.pandora) (hoff' : OffsetContract w')
    (hzoom' : w'.run.zoom = zoomLinear)
    (cfg : Flowed w user p mc inp l r f H W dRow dCol sr sc .nan 1 hw me ker it half)
    (cfg' : Flowed w' user' p' mc' inp' l' r' f' H W dRow' dCol' sr sc .nan 1 hw me ker it half) (hhw : half ≤ hw)
    (hext : w'.run.flow = w.run.flow) (hsz : KeepsSize w.run.flow) (hres : ResamplesThrough w.run.flow id)
    (hnd : ∀ left right, ImagesRead w l r none left right → right.noData ≠ .nan)
    (hnd' : ∀ left right, ImagesRead w' l' r' none left right → right.noData ≠ .nan)
    (himg : ∀ left right left' right', ImagesRead w l r none left right → ImagesRead w' l' r' none left' right' →
      OtherFlagged left left' ∧ OtherNoData right right')
    (ir : ∀ x < H, ∀ y < W, SameIntervalMoved dRow dRow' x y x y) (ic : ∀ x < H, ∀ y < W, SameIntervalMoved dCol dCol' x y x y)
    (h : Main.main w user = (out, none)) (h' : Main.main w' user' = (out', none)) :
    ∃ files rest files' rest' left right, out = .rasters files :: rest ∧ out' = .rasters files' :: rest' ∧ ImagesRead w l r none left right ∧
      (∀ f ∈ [files.row, files.col, files.score], (∀ i, i < f.h ↔ i * sr < H) ∧ ∀ j, j < f.w ↔ j * sc < W) ∧
      (∀ f ∈ [files'.row, files'.col, files'.score], (∀ i, i < f.h ↔ i * sr < H) ∧ ∀ j, j < f.w ↔ j * sc < W) ∧
      ∀ i < files.row.h, ∀ j < files.row.w, files'.score.values i j = files.score.values i j ∧
        (files.score.values i j = .nan → (files.row.values i j = .nan ∧ files.col.values i j = .nan) ∧
          files'.row.values i j = .nan ∧ files'.col.values i j = .nan) ∧
        (files.score.values i j ≠ .nan → ∃ x y, Reaches hw ker left right dRow dCol (i * sr) (j * sc) (files.score.values i j) x y) ∧
        ∀ x y : Int, (∀ x' y', Reaches hw ker left right dRow dCol (i * sr) (j * sc) (files.score.values i j) x' y' ↔ x' = x ∧ y' = y) →
          files'.row.values i j = files.row.values i j ∧ files'.col.values i j = files.col.values i j := by
  obtain ⟨⟨hn, hh⟩, files, rest, left, right, o, im, ⟨⟨s1, s2⟩, s3, s4⟩, ⟨z1, z2⟩, z, key⟩ := flow_rasters cfg wf hdisk hpan hkeeps hoff h
  obtain ⟨-, files', rest', left', right', o', im', ⟨⟨s1', s2'⟩, s3', s4'⟩, ⟨z1', z2'⟩, z', key'⟩ :=
    flow_rasters cfg' wf' hdisk' hpan' hkeeps' hoff' h'
  obtain ⟨tl, tr⟩ := himg _ _ _ _ im im'
  have hnd1 := hnd _ _ im
  have hnd2 := hnd' _ _ im'
  refine ⟨files, rest, files', rest', left, right, o, o', im, z, z', fun i hi j hj => ?_⟩
  have bi : i * sr < H := ((z _ List.mem_cons_self).1 i).1 hi
  have bj : j * sc < W := ((z _ List.mem_cons_self).2 j).1 hj
  obtain ⟨gmin, gmax, g, r0, c0, b1, p1, q1⟩ := key i hi j hj
  obtain ⟨gmin', gmax', g', r1, c1, b2, p2, q2⟩ := key' i (((z' _ List.mem_cons_self).1 i).2 bi) j (((z' _ List.mem_cons_self).2 j).2 bj)
  rw [hzoom] at b1
  rw [hzoom'] at b2
  rw [hext] at p2
  generalize i * sr = a at *
  generalize j * sc = b at *
  obtain ⟨e1, e2⟩ := ir _ bi _ bj
  obtain ⟨e3, e4⟩ := ic _ bi _ bj
  rw [← e3, ← e4] at g'
  rw [← e1, ← e2, ← e3, ← e4] at p2
  have hask : ∀ x y : K, AskedPair dRow' dCol' 1 a b x y ↔ AskedPair dRow dCol 1 a b x y := fun x y => by
    unfold AskedPair; rw [e1, e2, e3, e4]
  have whole : ∀ x y, AskedPair dRow dCol 1 a b x y → Pandora.windowCost hw ker left (slabImg zoomLinear right 1 x) gmin gmax a b y =
      costAt hw ker left right a b x y := by
    rintro x y ⟨⟨kx, ky, hx, hy⟩, -, u3, u4⟩
    rw [Nat.cast_one, mul_one] at hx hy
    subst hx hy
    obtain ⟨v1, v2⟩ := g _ u3 u4
    rw [slab_int, costAt, Int.floor_intCast, Int.floor_intCast, window_whole hnd1 ⟨Int.cast_le.1 v1, Int.cast_le.1 v2⟩]
  have costs : ∀ x y, AskedPair dRow dCol 1 a b x y → Pandora.windowCost hw ker left' (slabImg zoomLinear right' 1 x) gmin' gmax' a b y =
      costAt hw ker left right a b x y := by
    rintro x y ⟨⟨kx, ky, hx, hy⟩, -, u3, u4⟩
    rw [Nat.cast_one, mul_one] at hx hy
    subst hx hy
    obtain ⟨v1, v2⟩ := g' _ u3 u4
    rw [slab_int, costAt, Int.floor_intCast, Int.floor_intCast, window_whole hnd2 ⟨Int.cast_le.1 v1, Int.cast_le.1 v2⟩,
      wholeCost_nodata tl tr (by omega) (by omega)]
  have b1 := best_congr whole b1
  obtain ⟨rfl, rfl, hsc⟩ := BestPair.unique (best_congr costs (best_asked hask b2)) b1
  have none : files.score.values i j = .nan → (files.row.values i j = .nan ∧ files.col.values i j = .nan) ∧
      files'.row.values i j = .nan ∧ files'.col.values i j = .nan := by
    intro hs
    have hno : ∀ x y, AskedPair dRow dCol 1 a b x y → costAt hw ker left right a b x y = .nan := by
      intro x y q
      by_contra hne
      exact (b1.best ⟨x, y, q, hne⟩).1.1 hs
    obtain ⟨rfl, rfl, -⟩ := b1.invalid hno
    by_cases inn : InnerPoint 0 H sr half (a : Int) ∧ InnerPoint 0 W sc half (b : Int)
    · exact ⟨flowPixel_nan (p1 inn), flowPixel_nan (p2 inn)⟩
    · exact ⟨q1 inn, q2 inn⟩
  have some' : files.score.values i j ≠ .nan → ∃ x y, AskedPair dRow dCol 1 a b x y ∧ costAt hw ker left right a b x y ≠ .nan := by
    intro hs
    by_contra he
    push Not at he
    exact hs (b1.invalid he).2.2
  refine ⟨hsc, none, fun hs => ?_, fun x y only => ?_⟩
  · obtain ⟨-, x, y, q1, q2⟩ := (b1.best (some' hs)).1
    obtain ⟨kx, ky, -, -, q⟩ := costAt_reaches hs q1 q2
    exact ⟨kx, ky, q⟩
  by_cases hs : files.score.values i j = .nan
  · obtain ⟨⟨v1, v2⟩, v3, v4⟩ := none hs
    exact ⟨v3.trans v1.symm, v4.trans v2.symm⟩
  obtain ⟨-, hcomp, -⟩ := (only x y).2 ⟨rfl, rfl⟩
  have he := some' hs
  obtain ⟨dr, dc, rfl, rfl, ⟨dc', v1, v2⟩, ⟨dr', v3, v4⟩, -⟩ := b1.smallest he
  obtain ⟨rfl, -⟩ := costAt_reached only hs v1 v2
  obtain ⟨-, rfl⟩ := costAt_reached only hs v3 v4
  by_cases inn : InnerPoint 0 H sr half (a : Int) ∧ InnerPoint 0 W sc half (b : Int)
  · have f1 := innerPoint_fits inn.1
    have f2 := innerPoint_fits inn.2
    obtain ⟨⟨⟨k1, k2, k3, k4⟩, k5, k6, k7, k8⟩, m1, m2, m3⟩ := hcomp
    refine flowPixel_seen hh hsz hres (fun a b a' b' v1 v2 v3 v4 => lucasKanade_local v1 v2 v3 v4)
      (left_seen ⟨z1, z1'⟩ (by omega) (by omega) fun x y hx hy u1 u2 u3 u4 => tl.values x hx y hy (m1 x y (by omega) (by omega) (by omega) (by omega)))
      (fun s t h1 h2 => right_seen rfl ⟨by omega, by omega⟩ ⟨z2, z2'⟩ fun x' y' hx hy u1 u2 u3 u4 => ?_) (p1 inn) (p2 inn)
    obtain rfl := startShift_whole h1
    obtain rfl := startShift_whole h2
    exact tr.values x' hx y' hy (m3 x' y' (by omega) (by omega) (by omega) (by omega))
  · obtain ⟨y1, y2⟩ := q1 inn
    obtain ⟨y3, y4⟩ := q2 inn
    exact ⟨y3.trans y1.symm, y4.trans y2.symm⟩

/-! ## Examples -/

/-- A left image whose first pixel is flagged as no-data and holds `v`. -/
def exFlagged (v : F ℚ) (f : Nat → Nat → F ℚ) : Img ℚ :=
  { exImgSix fun x y => if x = 0 ∧ y = 0 then v else f x y with msk := some fun x y => if x = 0 ∧ y = 0 then 1 else 0 }

/-- A right image with the no-data value `nd` at the pixels of `hole`. -/
def exHoled (nd : F ℚ) (hole : Nat → Nat → Bool) (f : Nat → Nat → F ℚ) : Img ℚ :=
  { exImgSix fun x y => if hole x y then nd else f x y with noData := nd }

/-- Windows of three pixels compared by `sad`, on given images of six rows and columns. -/
noncomputable def exWorldImgs (l r : Img ℚ) : World ℚ :=
  { exWorldBoxF (fun _ _ => .fin 0) (fun _ _ => .fin 0) with
    files := ⟨fun v roi =>
      let img := if isLeftSection v then l else r
      match roi with
      | none => .ok img
      | some R => .ok (cropImg img R), fun _ => ⟨6, 6, fun _ _ => 0⟩⟩ }

/-- An image of six rows and columns read from the disk. -/
def exSized (i : Img ℚ) : Prop := (i.h = 6 ∧ i.w = 6) ∧ i.row0 = 0 ∧ i.col0 = 0

theorem exWorldImgs_contract {l r : Img ℚ} (hl : exSized l) (hr : exSized r) : RunContract (exWorldImgs l r) 6 6 := by
  obtain ⟨⟨d1, d2, d3, -, -⟩, ⟨p1, p2⟩, k, -, a, o, i, s⟩ := exWorldBoxF_contract (fun _ _ => .fin 0) (fun _ _ => .fin 0)
  obtain ⟨⟨l1, l2⟩, l3, l4⟩ := hl
  obtain ⟨⟨r1, r2⟩, r3, r4⟩ := hr
  refine ⟨⟨d1, d2, d3, ?_, ?_⟩, ⟨p1, p2⟩, k, ?_, fun _ _ _ _ => rfl, o, i, s⟩
  · intro v img h
    simp only [exWorldImgs, Except.ok.injEq] at h
    subst h
    split_ifs
    · exact ⟨l3, l4, l1, l2⟩
    · exact ⟨r3, r4, r1, r2⟩
  · intro v R img h h1 h2 h3
    simp only [exWorldImgs, Except.ok.injEq] at h
    subst h
    have key : ∀ i : Img ℚ, i.h = 6 → i.w = 6 → CropOk (cropImg i R) R 6 6 := by
      intro i hi hi'
      refine ⟨h1, h2, h3, rfl, rfl, ?_, ?_⟩
      · simp only [cropImg, hi]; push_cast at *; omega
      · simp only [cropImg, hi']; push_cast at *; omega
    split_ifs
    · exact key _ l1 l2
    · exact key _ r1 r2
  · intro inp l r _ _ _ roi _
    cases roi with
    | none => exact ⟨_, _, rfl, rfl⟩
    | some R => exact ⟨_, _, rfl, rfl⟩

theorem exWorldImgs_images {l r left right : Img ℚ} (h : ImagesRead (exWorldImgs l r) exL exR none left right) : left = l ∧ right = r := by
  obtain ⟨lj, rj, q1, q2, h1, h2⟩ := h
  have k1 := q1 "img" (.str "left.tif") rfl rfl
  have k2 := q2 "img" (.str "right.tif") rfl rfl
  simp only [exWorldImgs, Except.ok.injEq] at h1 h2
  subst h1 h2
  constructor
  · rw [if_pos]
    simp [isLeftSection, k1, readValue]
  · rw [if_neg]
    simp [isLeftSection, k2, readValue]

theorem exImgs_dicho (l r : Img ℚ) :
    ∃ p mc inp f, Dichotomised (exWorldImgs l r) (exUserBoxFull 0 1) p mc inp exL exR f 6 6 ⟨.const 0, 1⟩ ⟨.const 0, 1⟩ .nan 1 1 .min sad 1
      keysKernel :=
  ⟨_, _, _, _, rfl, rfl, rfl, rfl, rfl, rfl, rfl, rfl, ⟨_, 1, rfl, .inl rfl, by omega⟩, ⟨_, rfl, .inl ⟨rfl, rfl⟩⟩, rfl,
    ⟨_, _, _, _, _, .int 1, rfl, rfl, rfl, .inl rfl, rfl, rfl⟩, 1, 1,
    ⟨⟨_, rfl, ⟨_, _, _, rfl, rfl, rfl, .inl rfl, .inl ⟨_, .inl rfl, rfl⟩⟩, ⟨_, _, _, rfl, rfl, rfl, .inl rfl, .inl ⟨_, .inl rfl, rfl⟩⟩⟩,
    .inr ⟨rfl, rfl, rfl, rfl, rfl⟩,
    ⟨_, _, _, rfl, rfl, rfl, .inl ⟨_, _, rfl, .inl rfl, .inl rfl⟩, .inl ⟨_, rfl, .inr (.inr (.inl ⟨rfl, rfl⟩))⟩⟩⟩⟩

theorem exImgs_flowed (l r : Img ℚ) (k : Int) :
    ∃ p mc inp f, Flowed (exWorldImgs l r) (exUserFlowFull 0 k) p mc inp exL exR f 6 6 ⟨.const 0, k⟩ ⟨.const 0, k⟩ 1 1 .nan 1 1 .min sad 1 1 :=
  ⟨_, _, _, _, rfl, rfl, rfl, rfl, rfl, rfl, rfl, rfl, .inl ⟨_, rfl, .inl rfl⟩, rfl, ⟨_, _, _, _, rfl, .inl rfl⟩,
    ⟨_, _, _, _, _, .int 1, rfl, rfl, rfl, .inl rfl, rfl, rfl⟩,
    ⟨⟨_, rfl, ⟨_, _, _, rfl, rfl, rfl, .inl rfl, .inl ⟨_, .inl rfl, rfl⟩⟩, ⟨_, _, _, rfl, rfl, rfl, .inl rfl, .inl ⟨_, .inl rfl, rfl⟩⟩⟩,
    .inr ⟨rfl, rfl, rfl, rfl, rfl⟩,
    ⟨_, _, _, rfl, rfl, rfl, .inl ⟨_, _, rfl, .inl rfl, .inl rfl⟩, .inl ⟨_, rfl, .inr (.inr (.inl ⟨rfl, rfl⟩))⟩⟩⟩⟩

theorem exImgs_runsDicho {l r : Img ℚ} (hl : exSized l) (hr : exSized r) :
    Main.main (exWorldImgs l r) (exUserBoxFull 0 1) = ((Main.main (exWorldImgs l r) (exUserBoxFull 0 1)).1, none) := by
  have : (Main.main (exWorldImgs l r) (exUserBoxFull 0 1)).2 = none := by
    obtain ⟨m, cfg, h⟩ := accepted_ok (w := exWorldSixF) (user := exUserBoxFull 0 1) (by decide +kernel)
    refine C81_accepted_runs_partial (exWorldImgs l r) _ _ _ cfg m 6 6 0 5 0 5 1 1 (exUserBoxFull_wf 0 1) (exWorldImgs_contract hl hr) rfl (by decide)
      rfl (.inl ⟨_, _, rfl, .inl rfl, .inl rfl⟩) (.inr ⟨rfl, rfl, rfl, rfl, rfl⟩) (by omega) ?_ ?_ (.inl ⟨rfl, rfl⟩) h
    · intro he
      exact absurd rfl he
    · intro v hv
      have : v = exDichoOf 1 := (Option.some.inj hv).symm
      subst this
      exact ⟨_, rfl, .inr (.inl ⟨rfl, rfl, rfl⟩)⟩
  exact Prod.ext rfl this

theorem exImgs_runsFlow {l r : Img ℚ} (hl : exSized l) (hr : exSized r) (k : Int) (hacc : accepted exWorldSixF (exUserFlowFull 0 k) = true) :
    Main.main (exWorldImgs l r) (exUserFlowFull 0 k) = ((Main.main (exWorldImgs l r) (exUserFlowFull 0 k)).1, none) := by
  have : (Main.main (exWorldImgs l r) (exUserFlowFull 0 k)).2 = none := by
    obtain ⟨m, cfg, h⟩ := accepted_ok hacc
    refine C81_accepted_runs_partial (exWorldImgs l r) _ _ _ cfg m 6 6 0 5 0 5 1 1 (exUserFlowFull_wf 0 k) (exWorldImgs_contract hl hr) rfl (by decide)
      rfl (.inl ⟨_, _, rfl, .inl rfl, .inl rfl⟩) (.inr ⟨rfl, rfl, rfl, rfl, rfl⟩) (by omega) ?_ ?_ (.inl ⟨rfl, rfl⟩) h
    · intro he
      exact absurd rfl he
    · intro v hv
      have : v = exFlow := (Option.some.inj hv).symm
      subst this
      refine ⟨_, rfl, .inr (.inr ⟨rfl, .inr ⟨rfl, rfl⟩, ?_⟩)⟩
      intro c st wn mar half hc hi
      obtain rfl : wn = .int 3 := mc_window (fun _ => rfl) hc
      have : half = 1 := by
        rcases hi with hi | ⟨-, ⟨hi, -⟩ | ⟨hi, -⟩⟩
        · simp only [J.int.injEq] at hi; omega
        · simp at hi
        · simp at hi
      subst this
      exact ⟨⟨1, 2, by omega⟩, ⟨1, 2, by decide⟩⟩
  exact Prod.ext rfl this

/-- Images which only differ by the values of the no-data pixels. -/
theorem exOther (v v' nd nd' : F ℚ) (hole : Nat → Nat → Bool) (fl fr : Nat → Nat → F ℚ) (h : ∀ x y, fr x y ≠ nd) (h' : ∀ x y, fr x y ≠ nd') :
    OtherFlagged (exFlagged v fl) (exFlagged v' fl) ∧ OtherNoData (exHoled nd hole fr) (exHoled nd' hole fr) := by
  refine ⟨⟨fun _ _ _ _ => rfl, fun _ _ _ _ => rfl, fun x _ y _ q => ?_⟩, fun x _ y _ => ?_, fun x _ y _ q => ?_⟩
  · have : ¬ (x = 0 ∧ y = 0) := by
      intro e
      simp [Pandora.noDataAt, exFlagged, exImgSix, exLeftImg, e] at q
    simp only [exFlagged, exImgSix, this, if_false]
  · simp only [exHoled, exImgSix]
    cases hole x y
    · simp [h x y, h' x y]
    · simp
  · have e : hole x y = false := by
      by_contra e
      exact q (by simp [exHoled, exImgSix, e])
    simp [exHoled, exImgSix, e]

/-- With a dichotomy, whatever the flagged left value and whatever the no-data value of the right image, which is not one of its values. -/
example (v v' : F ℚ) (nd nd' : ℚ) (hole : Nat → Nat → Bool) (fl fr : Nat → Nat → F ℚ) (h : ∀ x y, fr x y ≠ .fin nd) (h' : ∀ x y, fr x y ≠ .fin nd') :
    ∃ files rest files' rest',
    Main.main (exWorldImgs (exFlagged v fl) (exHoled (.fin nd) hole fr)) (exUserBoxFull 0 1) = (.rasters files :: rest, none) ∧
    Main.main (exWorldImgs (exFlagged v' fl) (exHoled (.fin nd') hole fr)) (exUserBoxFull 0 1) = (.rasters files' :: rest', none) ∧
    ∀ a < 6, ∀ b < 6, files'.row.values a b = files.row.values a b ∧ files'.col.values a b = files.col.values a b ∧
      files'.score.values a b = files.score.values a b := by
  have sl : ∀ v, exSized (exFlagged v fl) := fun _ => ⟨⟨rfl, rfl⟩, rfl, rfl⟩
  have sr : ∀ nd, exSized (exHoled nd hole fr) := fun _ => ⟨⟨rfl, rfl⟩, rfl, rfl⟩
  obtain ⟨_, _, _, _, cfg⟩ := exImgs_dicho (exFlagged v fl) (exHoled (.fin nd) hole fr)
  obtain ⟨_, _, _, _, cfg'⟩ := exImgs_dicho (exFlagged v' fl) (exHoled (.fin nd') hole fr)
  have ct := exWorldImgs_contract (sl v) (sr (.fin nd))
  have ct' := exWorldImgs_contract (sl v') (sr (.fin nd'))
  have h1 := exImgs_runsDicho (sl v) (sr (.fin nd))
  have h2 := exImgs_runsDicho (sl v') (sr (.fin nd'))
  obtain ⟨files, rest, files', rest', o, o', -, -, key⟩ := C137_nodata_value_dichotomy _ _ _ _ _ _ _ _ _ _ _ _ _ _ _ _ _ _ 6 6 _ _ _ _ _ _ _ _ _ _
    (exUserBoxFull_wf 0 1) (exUserBoxFull_wf 0 1) ct.disk ct.pandora ct.keeps rfl ct'.disk ct'.pandora ct'.keeps rfl cfg cfg' (by decide)
    (fun left right i => by obtain ⟨rfl, rfl⟩ := exWorldImgs_images i; simp [exHoled])
    (fun left right i => by obtain ⟨rfl, rfl⟩ := exWorldImgs_images i; simp [exHoled])
    (fun left right left' right' i i' => by
      obtain ⟨rfl, rfl⟩ := exWorldImgs_images i
      obtain ⟨rfl, rfl⟩ := exWorldImgs_images i'
      exact exOther _ _ _ _ _ _ _ h h') (fun _ _ _ _ => ⟨rfl, rfl⟩) (fun _ _ _ _ => ⟨rfl, rfl⟩) h1 h2
  exact ⟨files, rest, files', rest', by rw [h1]; exact congrArg (·, none) o, by rw [h2]; exact congrArg (·, none) o', key⟩

/-- The pixels of the window of the right image at one row down the pixel of row 2 and column 2; the others hold no data. -/
def exBelow (x y : Nat) : Bool := !(decide (2 ≤ x ∧ x ≤ 4) && decide (1 ≤ y ∧ y ≤ 3))

/-- One pair only reaches the score of the pixel of row 2 and column 2. -/
theorem exBelow_only (v : F ℚ) (nd : ℚ) (s : F ℚ)
    (hr : ∃ x y, Reaches 1 sad (exFlagged v fun x y => .fin ((x : ℚ) * y)) (exHoled (.fin nd) exBelow fun _ _ => .fin 0) ⟨.const 0, 2⟩ ⟨.const 0, 2⟩ 2 2 s x y)
    (x' y' : Int) : Reaches 1 sad (exFlagged v fun x y => .fin ((x : ℚ) * y)) (exHoled (.fin nd) exBelow fun _ _ => .fin 0) ⟨.const 0, 2⟩ ⟨.const 0, 2⟩ 2 2 s
      x' y' ↔ x' = 1 ∧ y' = 0 := by
  have one : ∀ x y, Reaches 1 sad (exFlagged v fun x y => .fin ((x : ℚ) * y)) (exHoled (.fin nd) exBelow fun _ _ => .fin 0) ⟨.const 0, 2⟩ ⟨.const 0, 2⟩ 2 2 s
      x y → x = 1 ∧ y = 0 := by
    rintro x y ⟨-, ⟨hin, -, -, hv⟩, -⟩
    have hin := hin.2
    have at' : ∀ a b : Nat, (2 : Int) + x ≤ a + 1 → (a : Int) ≤ 2 + x + 1 → (2 : Int) + y ≤ b + 1 → (b : Int) ≤ 2 + y + 1 →
        (2 ≤ a ∧ a ≤ 4) ∧ 1 ≤ b ∧ b ≤ 3 := by
      intro a b u1 u2 u3 u4
      have := hv a b (by push_cast; omega) (by push_cast; omega) (by push_cast; omega) (by push_cast; omega)
      by_contra hc
      refine this ?_
      have : exBelow a b = true := by
        simp only [exBelow, Bool.not_eq_true', Bool.and_eq_false_iff, decide_eq_false_iff_not]
        tauto
      simp [exHoled, exImgSix, this]
    push_cast at hin
    have c1 := at' (2 + x - 1).toNat (2 + y - 1).toNat (by omega) (by omega) (by omega) (by omega)
    have c2 := at' (2 + x + 1).toNat (2 + y + 1).toNat (by omega) (by omega) (by omega) (by omega)
    omega
  constructor
  · exact one x' y'
  · rintro ⟨rfl, rfl⟩
    obtain ⟨x, y, h⟩ := hr
    obtain ⟨rfl, rfl⟩ := one x y h
    exact h

/-- With an optical flow, whatever the flagged left value and the no-data values: the pixel of row 2 and column 2. -/
example (v v' : F ℚ) (nd nd' : ℚ) (h : nd ≠ 0) (h' : nd' ≠ 0) : ∃ files rest files' rest',
    Main.main (exWorldImgs (exFlagged v fun x y => .fin ((x : ℚ) * y)) (exHoled (.fin nd) exBelow fun _ _ => .fin 0)) (exUserFlowFull 0 2) =
      (.rasters files :: rest, none) ∧
    Main.main (exWorldImgs (exFlagged v' fun x y => .fin ((x : ℚ) * y)) (exHoled (.fin nd') exBelow fun _ _ => .fin 0)) (exUserFlowFull 0 2) =
      (.rasters files' :: rest', none) ∧
    files'.row.values 2 2 = files.row.values 2 2 ∧ files'.col.values 2 2 = files.col.values 2 2 ∧ files'.score.values 2 2 = files.score.values 2 2 := by
  set fl : Nat → Nat → F ℚ := fun x y => .fin ((x : ℚ) * y) with hfl
  set fr : Nat → Nat → F ℚ := fun _ _ => .fin 0 with hfr
  have sl : ∀ v, exSized (exFlagged v fl) := fun _ => ⟨⟨rfl, rfl⟩, rfl, rfl⟩
  have sr : ∀ nd, exSized (exHoled nd exBelow fr) := fun _ => ⟨⟨rfl, rfl⟩, rfl, rfl⟩
  obtain ⟨_, _, _, _, cfg⟩ := exImgs_flowed (exFlagged v fl) (exHoled (.fin nd) exBelow fr) 2
  obtain ⟨_, _, _, _, cfg'⟩ := exImgs_flowed (exFlagged v' fl) (exHoled (.fin nd') exBelow fr) 2
  have ct := exWorldImgs_contract (sl v) (sr (.fin nd))
  have ct' := exWorldImgs_contract (sl v') (sr (.fin nd'))
  have h1 := exImgs_runsFlow (sl v) (sr (.fin nd)) 2 (by decide +kernel)
  have h2 := exImgs_runsFlow (sl v') (sr (.fin nd')) 2 (by decide +kernel)
  obtain ⟨files, rest, files', rest', left, right, o, o', im, z, -, key⟩ := C138_nodata_value_flow_partial _ _ _ _ _ _ _ _ _ _ _ _ _ _ _ _ _ _ 6 6
    _ _ _ _ _ _ _ _ _ _ _
    (exUserFlowFull_wf 0 2) (exUserFlowFull_wf 0 2) ct.disk ct.pandora ct.keeps ct.offset rfl ct'.disk ct'.pandora ct'.keeps ct'.offset rfl cfg cfg'
    (by decide) rfl (fun _ _ _ => ⟨rfl, rfl⟩) (fun _ _ _ _ h => h)
    (fun left right i => by obtain ⟨rfl, rfl⟩ := exWorldImgs_images i; simp [exHoled])
    (fun left right i => by obtain ⟨rfl, rfl⟩ := exWorldImgs_images i; simp [exHoled])
    (fun left right left' right' i i' => by
      obtain ⟨rfl, rfl⟩ := exWorldImgs_images i
      obtain ⟨rfl, rfl⟩ := exWorldImgs_images i'
      exact exOther _ _ _ _ _ _ _ (fun _ _ e => h (F.fin.inj e).symm) (fun _ _ e => h' (F.fin.inj e).symm))
    (fun _ _ _ _ => ⟨rfl, rfl⟩) (fun _ _ _ _ => ⟨rfl, rfl⟩) h1 h2
  obtain ⟨rfl, rfl⟩ := exWorldImgs_images im
  obtain ⟨y1, y2⟩ := z _ List.mem_cons_self
  obtain ⟨k1, k2, k3, k4⟩ := key 2 ((y1 2).2 (by decide)) 2 ((y2 2).2 (by decide))
  refine ⟨files, rest, files', rest', by rw [h1]; exact congrArg (·, none) o, by rw [h2]; exact congrArg (·, none) o', ?_⟩
  by_cases hs : files.score.values 2 2 = .nan
  · obtain ⟨⟨v1, v2⟩, v3, v4⟩ := k2 hs
    exact ⟨v3.trans v1.symm, v4.trans v2.symm, k1⟩
  · obtain ⟨v1, v2⟩ := k4 1 0 (exBelow_only v nd _ (k3 hs))
    exact ⟨v1, v2, k1⟩

/-! ### Counterexample -/

/-- The full statement of C138: the refined disparities are the same at every pixel. -/
def C138Statement : Prop :=
  ∀ (w w' : World ℚ) (user user' p p' mc mc' inp inp' l r l' r' f f' : Fields) (out out' : List (Written ℚ))
    (H W : Nat) (dRow dCol dRow' dCol' : Disp) (sr sc : Nat) (hw : Nat) (me : Measure) (ker : List (F ℚ × F ℚ) → F ℚ) (it half : Nat),
    user.wf → user'.wf → DiskContract w H W → PandoraContract w → PandoraKeeps w.pandora → OffsetContract w → w.run.zoom = zoomLinear →
    DiskContract w' H W → PandoraContract w' → PandoraKeeps w'.pandora → OffsetContract w' → w'.run.zoom = zoomLinear →
    Flowed w user p mc inp l r f H W dRow dCol sr sc .nan 1 hw me ker it half →
    Flowed w' user' p' mc' inp' l' r' f' H W dRow' dCol' sr sc .nan 1 hw me ker it half → half ≤ hw →
    w'.run.flow = w.run.flow → KeepsSize w.run.flow → ResamplesThrough w.run.flow id →
    (∀ left right, ImagesRead w l r none left right → right.noData ≠ .nan) →
    (∀ left right, ImagesRead w' l' r' none left right → right.noData ≠ .nan) →
    (∀ left right left' right', ImagesRead w l r none left right → ImagesRead w' l' r' none left' right' →
      OtherFlagged left left' ∧ OtherNoData right right') →
    (∀ x < H, ∀ y < W, SameIntervalMoved dRow dRow' x y x y) → (∀ x < H, ∀ y < W, SameIntervalMoved dCol dCol' x y x y) →
    Main.main w user = (out, none) → Main.main w' user' = (out', none) →
    ∃ (files : Files ℚ (F ℚ)) (rest : List (Written ℚ)) (files' : Files ℚ (F ℚ)) (rest' : List (Written ℚ)),
      out = .rasters files :: rest ∧ out' = .rasters files' :: rest' ∧
      ∀ i < files.row.h, ∀ j < files.row.w, files'.row.values i j = files.row.values i j ∧ files'.col.values i j = files.col.values i j ∧
        files'.score.values i j = files.score.values i j

/-- Two windows of the right image hold data: one column to the right, or one row down, of the pixel of row 2 and column 2. -/
def exTwo (x y : Nat) : Bool :=
  !((decide (1 ≤ x ∧ x ≤ 3) && decide (2 ≤ y ∧ y ≤ 4)) || (decide (2 ≤ x ∧ x ≤ 4) && decide (1 ≤ y ∧ y ≤ 3)))

def exHill (x y : Nat) : F ℚ := .fin ((x : ℚ) * y - 4)

/-- The row disparity of the pixel of row 2 and column 2, whose two best pairs are `(0, 1)` and `(1, 0)`. -/
theorem exTwo_pixel (nd d : ℚ) (hnd : nd = -1 ∧ d = 1 / 6 ∨ nd = -7 ∧ d = 19 / 78) {p mc inp f : Fields} {out : List (Written ℚ)}
    (cfg : Flowed (exWorldImgs (exImgSix exHill) (exHoled (.fin nd) exTwo fun _ _ => .fin 0)) (exUserFlowFull 0 1) p mc inp exL exR f 6 6 ⟨.const 0, 1⟩
      ⟨.const 0, 1⟩ 1 1 .nan 1 1 .min sad 1 1)
    (h : Main.main (exWorldImgs (exImgSix exHill) (exHoled (.fin nd) exTwo fun _ _ => .fin 0)) (exUserFlowFull 0 1) = (out, none)) :
    ∃ files rest, out = .rasters files :: rest ∧ (2 < files.row.h ∧ 2 < files.row.w) ∧ files.row.values 2 2 = .fin d := by
  have sz : exSized (exHoled (.fin nd) exTwo fun _ _ => .fin 0) := ⟨⟨rfl, rfl⟩, rfl, rfl⟩
  have ct := exWorldImgs_contract (l := exImgSix exHill) ⟨⟨rfl, rfl⟩, rfl, rfl⟩ sz
  obtain ⟨-, files, rest, left, right, o, im, -, -, z, key⟩ := flow_rasters cfg (exUserFlowFull_wf 0 1) ct.disk ct.pandora ct.keeps ct.offset h
  obtain ⟨rfl, rfl⟩ := exWorldImgs_images im
  obtain ⟨y1, y2⟩ := z _ List.mem_cons_self
  have z1 := (y1 2).2 (by decide)
  have z2 := (y2 2).2 (by decide)
  refine ⟨files, rest, o, ⟨z1, z2⟩, ?_⟩
  obtain ⟨gmin, gmax, g, r0, c0, b1, p1, -⟩ := key 2 z1 2 z2
  have hzoom : (exWorldImgs (exImgSix exHill) (exHoled (.fin nd) exTwo fun _ _ => .fin 0)).run.zoom = zoomLinear := rfl
  rw [hzoom] at b1
  have whole : ∀ x y, AskedPair ⟨.const 0, 1⟩ ⟨.const 0, 1⟩ 1 ((2 * 1 : Nat) : Int) ((2 * 1 : Nat) : Int) x y →
      Pandora.windowCost 1 sad (exImgSix exHill) (slabImg zoomLinear (exHoled (.fin nd) exTwo fun _ _ => .fin 0) 1 x) gmin gmax (2 * 1) (2 * 1) y =
      costAt 1 sad (exImgSix exHill) (exHoled (.fin nd) exTwo fun _ _ => .fin 0) 2 2 x y := by
    rintro x y ⟨⟨kx, ky, hx, hy⟩, -, u3, u4⟩
    rw [Nat.cast_one, mul_one] at hx hy
    subst hx hy
    obtain ⟨v1, v2⟩ := g _ u3 u4
    rw [slab_int, costAt, Int.floor_intCast, Int.floor_intCast, window_whole (by simp [exHoled]) ⟨Int.cast_le.1 v1, Int.cast_le.1 v2⟩]
  have b1 := best_congr whole b1
  -- the pairs which can be compared
  have comp : ∀ u v : Int, Comparable 1 (exImgSix exHill) (exHoled (.fin nd) exTwo fun _ _ => .fin 0) 2 2 u v → u = 0 ∧ v = 1 ∨ u = 1 ∧ v = 0 := by
    rintro u v ⟨hin, -, -, hv⟩
    have hin := hin.2
    have at' : ∀ a b : Nat, (2 : Int) + u ≤ a + 1 → (a : Int) ≤ 2 + u + 1 → (2 : Int) + v ≤ b + 1 → (b : Int) ≤ 2 + v + 1 →
        ((1 ≤ a ∧ a ≤ 3) ∧ 2 ≤ b ∧ b ≤ 4) ∨ (2 ≤ a ∧ a ≤ 4) ∧ 1 ≤ b ∧ b ≤ 3 := by
      intro a b u1 u2 u3 u4
      have := hv a b (by push_cast; omega) (by push_cast; omega) (by push_cast; omega) (by push_cast; omega)
      by_contra hc
      refine this ?_
      have : exTwo a b = true := by
        simp only [exTwo, Bool.not_eq_true', Bool.or_eq_false_iff, Bool.and_eq_false_iff, decide_eq_false_iff_not]
        omega
      simp [exHoled, exImgSix, this]
    push_cast at hin
    have c1 := at' (2 + u - 1).toNat (2 + v - 1).toNat (by omega) (by omega) (by omega) (by omega)
    have c2 := at' (2 + u + 1).toNat (2 + v + 1).toNat (by omega) (by omega) (by omega) (by omega)
    omega
  have both : ∀ u v : Int, u = 0 ∧ v = 1 ∨ u = 1 ∧ v = 0 →
      costAt 1 sad (exImgSix exHill) (exHoled (.fin nd) exTwo fun _ _ => .fin 0) 2 2 (u : ℚ) (v : ℚ) = .fin 18 := by
    intro u v huv
    unfold costAt wholeCost
    rw [Int.floor_intCast, Int.floor_intCast, if_pos]
    · rcases huv with ⟨rfl, rfl⟩ | ⟨rfl, rfl⟩ <;> rcases hnd with ⟨rfl, -⟩ | ⟨rfl, -⟩ <;> decide +kernel
    · refine ⟨?_, fun _ _ _ _ _ _ => rfl, rfl, fun x y q1 q2 q3 q4 => ?_⟩
      · simp only [BothInside, exImgSix, exHoled]
        omega
      · have : exTwo x y = false := by
          simp only [exTwo, Bool.not_eq_false', Bool.or_eq_true, Bool.and_eq_true, decide_eq_true_eq]
          push_cast at q1 q2 q3 q4
          omega
        simp only [exHoled, exImgSix, this, Bool.false_eq_true, if_false, ne_eq, F.fin.injEq]
        rcases hnd with ⟨rfl, -⟩ | ⟨rfl, -⟩ <;> norm_num
  have ask : ∀ u v : Int, u = 0 ∧ v = 1 ∨ u = 1 ∧ v = 0 →
      AskedPair ⟨.const 0, 1⟩ ⟨.const 0, 1⟩ 1 ((2 * 1 : Nat) : Int) ((2 * 1 : Nat) : Int) (u : ℚ) (v : ℚ) := by
    intro u v huv
    refine ⟨⟨u, v, by simp, by simp⟩, ?_⟩
    simp only [initAt, Int.cast_le]
    omega
  have only : ∀ x y : ℚ, AskedPair ⟨.const 0, 1⟩ ⟨.const 0, 1⟩ 1 ((2 * 1 : Nat) : Int) ((2 * 1 : Nat) : Int) x y →
      costAt 1 sad (exImgSix exHill) (exHoled (.fin nd) exTwo fun _ _ => .fin 0) 2 2 x y ≠ .nan → x = 0 ∧ y = 1 ∨ x = 1 ∧ y = 0 := by
    intro x y q hne
    obtain ⟨u, v, rfl, rfl, -, hc, -⟩ := costAt_reaches hne q rfl
    rcases comp u v hc with ⟨rfl, rfl⟩ | ⟨rfl, rfl⟩ <;> simp
  have he : ∃ x y, AskedPair ⟨.const 0, 1⟩ ⟨.const 0, 1⟩ 1 ((2 * 1 : Nat) : Int) ((2 * 1 : Nat) : Int) x y ∧
      costAt 1 sad (exImgSix exHill) (exHoled (.fin nd) exTwo fun _ _ => .fin 0) 2 2 x y ≠ .nan :=
    ⟨_, _, ask 0 1 (.inl ⟨rfl, rfl⟩), by rw [both 0 1 (.inl ⟨rfl, rfl⟩)]; simp⟩
  obtain ⟨⟨hs, x, y, v1, v2⟩, -⟩ := b1.best he
  have hsc : files.score.values 2 2 = .fin 18 := by
    rw [← v2] at hs ⊢
    rcases only x y v1 hs with ⟨rfl, rfl⟩ | ⟨rfl, rfl⟩
    · exact_mod_cast both 0 1 (.inl ⟨rfl, rfl⟩)
    · exact_mod_cast both 1 0 (.inr ⟨rfl, rfl⟩)
  obtain ⟨dr, dc, rfl, rfl, ⟨dc', w1, w2⟩, ⟨dr', w3, w4⟩, w5⟩ := b1.smallest he
  obtain ⟨m1, -⟩ := w5 _ _ (ask 0 1 (.inl ⟨rfl, rfl⟩)) ((both 0 1 (.inl ⟨rfl, rfl⟩)).trans hsc.symm)
  obtain ⟨-, m2⟩ := w5 _ _ (ask 1 0 (.inr ⟨rfl, rfl⟩)) ((both 1 0 (.inr ⟨rfl, rfl⟩)).trans hsc.symm)
  have hdr : dr = 0 := by
    rcases only _ _ w1 (by rw [w2]; exact hs) with ⟨e, -⟩ | ⟨e, -⟩
    · exact e
    · rw [e] at m1; norm_num at m1
  have hdc : dc = 0 := by
    rcases only _ _ w3 (by rw [w4]; exact hs) with ⟨-, e⟩ | ⟨-, e⟩
    · rw [e] at m2; norm_num at m2
    · exact e
  subst hdr hdc
  obtain ⟨sr, sc, s1, s2, t, rfl, e, -⟩ := p1 ⟨⟨⟨1, by decide, by decide⟩, 1, by decide, by decide⟩, ⟨1, by decide, by decide⟩, 1, by decide, by decide⟩
  obtain rfl : sr = 0 := startShift_whole (K := ℚ) (d := 0) (by simpa using s1)
  obtain rfl : sc = 0 := startShift_whole (K := ℚ) (d := 0) (by simpa using s2)
  rw [e]
  have hflow : (exWorldImgs (exImgSix exHill) (exHoled (.fin nd) exTwo fun _ _ => .fin 0)).run.flow = exExt := rfl
  rw [hflow]
  rcases hnd with ⟨rfl, rfl⟩ | ⟨rfl, rfl⟩ <;> decide +kernel

/-- The full statement is false: when two pairs of disparities reach the score, the row disparity comes from one and the column disparity from the
other, so that the window of the refinement may hold no-data pixels, whose values change the refined disparities. -/
theorem C138_false : ¬ C138Statement := by
  intro hst
  have sl : exSized (exImgSix exHill) := ⟨⟨rfl, rfl⟩, rfl, rfl⟩
  have sr : ∀ nd, exSized (exHoled nd exTwo fun _ _ => .fin 0) := fun _ => ⟨⟨rfl, rfl⟩, rfl, rfl⟩
  obtain ⟨_, _, _, _, cfg⟩ := exImgs_flowed (exImgSix exHill) (exHoled (.fin (-1)) exTwo fun _ _ => .fin 0) 1
  obtain ⟨_, _, _, _, cfg'⟩ := exImgs_flowed (exImgSix exHill) (exHoled (.fin (-7)) exTwo fun _ _ => .fin 0) 1
  have ct := exWorldImgs_contract sl (sr (.fin (-1)))
  have ct' := exWorldImgs_contract sl (sr (.fin (-7)))
  have h1 := exImgs_runsFlow sl (sr (.fin (-1))) 1 (by decide +kernel)
  have h2 := exImgs_runsFlow sl (sr (.fin (-7))) 1 (by decide +kernel)
  obtain ⟨files, rest, files', rest', o, o', key⟩ := hst _ _ _ _ _ _ _ _ _ _ _ _ _ _ _ _ _ _ 6 6
    _ _ _ _ _ _ _ _ _ _ _
    (exUserFlowFull_wf 0 1) (exUserFlowFull_wf 0 1) ct.disk ct.pandora ct.keeps ct.offset rfl ct'.disk ct'.pandora ct'.keeps ct'.offset rfl cfg cfg'
    (by decide) rfl (fun _ _ _ => ⟨rfl, rfl⟩) (fun _ _ _ _ h => h)
    (fun left right i => by obtain ⟨rfl, rfl⟩ := exWorldImgs_images i; simp [exHoled])
    (fun left right i => by obtain ⟨rfl, rfl⟩ := exWorldImgs_images i; simp [exHoled])
    (fun left right left' right' i i' => by
      obtain ⟨rfl, rfl⟩ := exWorldImgs_images i
      obtain ⟨rfl, rfl⟩ := exWorldImgs_images i'
      refine ⟨⟨fun _ _ _ _ => rfl, fun _ _ _ _ => rfl, fun _ _ _ _ _ => rfl⟩, ?_⟩
      exact (exOther .nan .nan _ _ _ (fun _ _ => .nan) _ (fun _ _ => by simp) (fun _ _ => by simp)).2)
    (fun _ _ _ _ => ⟨rfl, rfl⟩) (fun _ _ _ _ => ⟨rfl, rfl⟩) h1 h2
  obtain ⟨fs, _, w1, ⟨w2, w3⟩, w4⟩ := exTwo_pixel (-1) (1 / 6) (.inl ⟨rfl, rfl⟩) cfg h1
  obtain ⟨fs', _, w1', -, w4'⟩ := exTwo_pixel (-7) (19 / 78) (.inr ⟨rfl, rfl⟩) cfg' h2
  have e1 := o.symm.trans w1
  have e2 := o'.symm.trans w1'
  simp only [List.cons.injEq, Written.rasters.injEq] at e1 e2
  obtain ⟨rfl, -⟩ := e1
  obtain ⟨rfl, -⟩ := e2
  have v := (key 2 w2 2 w3).1
  rw [w4, w4', F.fin.injEq] at v
  norm_num at v

end Verif.Props
