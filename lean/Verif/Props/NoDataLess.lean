import Verif.Props.InterpSymmetry
import Verif.Props.Symmetry

/-!
# C151: more no-data never gives a disparity, with an interpolation or a dichotomy
-/

namespace Verif.Props

open Verif Verif.Config Verif.Machine Verif.ImgTools Verif.MatchingCost Verif.Disparity Verif.Run Verif.Main Verif.Spec Verif.Save
  Verif.Statistics Verif.Interpolation

set_option linter.unusedSectionVars false

variable {K : Type} [Field K] [LinearOrder K] [IsStrictOrderedRing K] [FloorRing K]

/-- Windows which can be compared with more no-data can be compared without, and hold the same values. -/
theorem comparable_less {hw : Nat} {left right left' right' : Img K} {a b : Nat} {u v : Int} (hl : MoreFlags left left')
    (hr : MoreNoData right right') (sl : left'.h = left.h ∧ left'.w = left.w) (sr : right'.h = right.h ∧ right'.w = right.w)
    (h : Comparable hw left' right' a b u v) :
    Comparable hw left right a b u v ∧ wholePairs hw left' right' a b u v = wholePairs hw left right a b u v := by
  obtain ⟨gr', gr2⟩ := hr
  obtain ⟨b1, b2, b3, b4⟩ := h
  have hin : BothInside hw left right u v a b := by
    unfold BothInside at b1 ⊢
    rwa [sl.1, sl.2, sr.1, sr.2] at b1
  have bi := hin
  obtain ⟨⟨q1, q2, q3, q4⟩, q5, q6, q7, q8⟩ := bi
  have same : ∀ x y : Nat, (a : Int) + u ≤ x + hw → (x : Int) ≤ a + u + hw → (b : Int) + v ≤ y + hw → (y : Int) ≤ b + v + hw →
      right'.im x y = right.im x y := by
    intro x y x1 x2 y1 y2
    rcases gr2 x (by omega) y (by omega) with e | e
    · exact e
    · exact absurd (by rw [e, gr']) (b4 x y x1 x2 y1 y2)
  refine ⟨⟨hin, fun x y x1 x2 y1 y2 => ?_, ?_, fun x y x1 x2 y1 y2 => ?_⟩, ?_⟩
  · exact (hl.values x (by omega) y (by omega) (b2 x y x1 x2 y1 y2)).1
  · exact hl.valid _ (by omega) _ (by omega) b3
  · rw [← same x y x1 x2 y1 y2, ← gr']
    exact b4 x y x1 x2 y1 y2
  · unfold wholePairs
    refine List.flatMap_congr fun x hx => List.map_congr_left fun y hy => ?_
    rw [List.mem_range] at hx hy
    rw [same _ _ (by omega) (by omega) (by omega) (by omega),
      (hl.values _ (by omega) _ (by omega) (b2 _ _ (by omega) (by omega) (by omega) (by omega))).2]

/-- A cost found with more no-data is found without. -/
theorem wholeCost_less {hw : Nat} {ker : List (F K × F K) → F K} {left right left' right' : Img K} {a b : Nat} {u v : Int} (hl : MoreFlags left left')
    (hr : MoreNoData right right') (sl : left'.h = left.h ∧ left'.w = left.w) (sr : right'.h = right.h ∧ right'.w = right.w)
    (h : wholeCost hw ker left right a b u v = .nan) : wholeCost hw ker left' right' a b u v = .nan := by
  unfold wholeCost at h ⊢
  by_cases q : Comparable hw left' right' a b u v
  · obtain ⟨q1, q2⟩ := comparable_less hl hr sl sr q
    rw [if_pos q1] at h
    rw [if_pos q, q2, h]
  · rw [if_neg q]

/-- The costs are the same when the windows can still be compared. -/
theorem wholeCost_still {hw : Nat} {ker : List (F K × F K) → F K} {left right left' right' : Img K} {a b : Nat} {u v : Int} (hl : MoreFlags left left')
    (hr : MoreNoData right right') (sl : left'.h = left.h ∧ left'.w = left.w) (sr : right'.h = right.h ∧ right'.w = right.w)
    (h : Comparable hw left right a b u v → Comparable hw left' right' a b u v) :
    wholeCost hw ker left' right' a b u v = wholeCost hw ker left right a b u v := by
  unfold wholeCost
  by_cases q : Comparable hw left' right' a b u v
  · obtain ⟨q1, q2⟩ := comparable_less hl hr sl sr q
    rw [if_pos q, if_pos q1, q2]
  · rw [if_neg q, if_neg (mt h q)]

/-- C151, with an interpolation which starts from disparities of whole pixels. Two successful executions on full images, without estimation, with the same
window cost, intervals, invalid value and interpolation, whatever their steps: the second has more pixels flagged as no-data or invalid in its left image, and
more no-data values in its right image. `fr` and `lr` are the smallest and the greatest row disparities asked for all the pixels. At each pixel they
share, when the first gives no disparity the second gives no disparity and no score; and when all the pairs of windows displaced by the row
disparities asked and by the column disparities of the pixel, widened by three, which could be compared in the first can be compared in the second,
the three values are the same. -/
theorem C151_more_nodata_interpolation (w w' : World K) (user user' p p' mc mc' inp inp' l r l' r' f f' : Fields) (out out' : List (Written K)) (H W : Nat)
    (dRow dCol dRow' dCol' : Disp) (sr sc sr' sc' : Nat) (invalid : F K) (hw : Nat) (me : Measure) (ker : List (F K × F K) → F K)
    (wf : user.wf) (wf' : user'.wf)
    (hdisk : DiskContract w H W) (hpan : PandoraContract w) (hkeeps : PandoraKeeps w.pandora)
    (hdisk' : DiskContract w' H W) (hpan' : PandoraContract w') (hkeeps' : PandoraKeeps w'.pandora)
    (hext : w'.run.interp = w.run.interp) (hb : BoundsContract w.run.interp) (he : ReadsInside w.run.interp)
    (cfg : Interpolated w user p mc inp l r f H W dRow dCol sr sc invalid 1 hw me ker)
    (cfg' : Interpolated w' user' p' mc' inp' l' r' f' H W dRow' dCol' sr' sc' invalid 1 hw me ker)
    (hnd : ∀ left right, ImagesRead w l r none left right → right.noData ≠ .nan)
    (hnd' : ∀ left right, ImagesRead w' l' r' none left right → right.noData ≠ .nan)
    (himg : ∀ left right left' right', ImagesRead w l r none left right → ImagesRead w' l' r' none left' right' →
      MoreFlags left left' ∧ MoreNoData right right')
    (ir : ∀ x < H, ∀ y < W, SameIntervalMoved dRow dRow' x y x y) (ic : ∀ x < H, ∀ y < W, SameIntervalMoved dCol dCol' x y x y)
    (h : Main.main w user = (out, none)) (h' : Main.main w' user' = (out', none)) :
    ∃ files rest files' rest' left right left' right', ∃ fr lr : Int, out = .rasters files :: rest ∧ out' = .rasters files' :: rest' ∧
      ImagesRead w l r none left right ∧ ImagesRead w' l' r' none left' right' ∧ Extent dRow left fr lr ∧
      (∀ f ∈ [files.row, files.col, files.score], (∀ i, i < f.h ↔ i * sr < H) ∧ ∀ j, j < f.w ↔ j * sc < W) ∧
      (∀ f ∈ [files'.row, files'.col, files'.score], (∀ i, i < f.h ↔ i * sr' < H) ∧ ∀ j, j < f.w ↔ j * sc' < W) ∧
      ∀ i j i' j' a b : Nat, a = i * sr → a = i' * sr' → b = j * sc → b = j' * sc' → a < H → b < W →
        (files.row.values i j = .nan → files'.row.values i' j' = .nan ∧ files'.col.values i' j' = .nan ∧ files'.score.values i' j' = .nan) ∧
        ((∀ u v : Int, fr - 3 ≤ u → u ≤ lr + 3 → initAt dCol a b - dCol.range - 3 ≤ v → v ≤ initAt dCol a b + dCol.range + 3 →
            Comparable hw left right a b u v → Comparable hw left' right' a b u v) →
          files'.row.values i' j' = files.row.values i j ∧ files'.col.values i' j' = files.col.values i j ∧
            files'.score.values i' j' = files.score.values i j) := by
  obtain ⟨s⟩ := interpolated_stages cfg wf hpan h
  obtain ⟨s'⟩ := interpolated_stages cfg' wf' hpan' h'
  obtain ⟨hn, im, ⟨sl, sr1⟩, o, z, ax, ay, fr, lr, fc, lc, gmin, gmax, ⟨x1, x2⟩, ⟨fy, fx⟩, hg, key⟩ := s.interpolated cfg wf hdisk hkeeps hb
  obtain ⟨-, im', ⟨sl', sr1'⟩, o', z', ax', ay', fr', lr', fc', lc', gmin', gmax', ⟨x1', x2'⟩, ⟨fy', fx'⟩, hg', key'⟩ :=
    s'.interpolated cfg' wf' hdisk' hkeeps' (by rw [hext]; exact hb)
  obtain ⟨rfl, rfl⟩ := extent_same sl sl' o o' ir x1 x1'
  obtain ⟨rfl, rfl⟩ := extent_same sl sl' o o' ic x2 x2'
  obtain ⟨tl, tr⟩ := himg _ _ _ _ im im'
  have nd := hnd _ _ im
  have nd' := hnd' _ _ im'
  rw [hext] at key'
  refine ⟨s.files, _, s'.files, _, s.left.img, s.right.img, s'.left.img, s'.right.img, fr', lr', s.outIs, s'.outIs, im, im', x1, z, z',
    fun i j i' j' a b ea ea' eb eb' ha hb => ?_⟩
  obtain ⟨r0, c0, s0, b1, p1⟩ := key i j a b ea eb ha hb
  obtain ⟨r1, c1, s1, b2, p2⟩ := key' i' j' a b ea' eb' ha hb
  obtain ⟨g1, g2⟩ := hg a ha b hb
  obtain ⟨g1', g2'⟩ := hg' a ha b hb
  obtain ⟨u1, u2⟩ := ir a ha b hb
  obtain ⟨v1, v2⟩ := ic a ha b hb
  -- the costs of whole disparities
  have whole : ∀ x y : Int, gmin.get a b ≤ y ∧ y ≤ gmax.get a b →
      Pandora.windowCost hw ker s.left.img (slabImg w.run.zoom s.right.img 1 (x : K)) gmin gmax a b (y : K) =
        wholeCost hw ker s.left.img s.right.img a b x y ∧
      Pandora.windowCost hw ker s'.left.img (slabImg w'.run.zoom s'.right.img 1 (x : K)) gmin' gmax' a b (y : K) =
        wholeCost hw ker s'.left.img s'.right.img a b x y := by
    intro x y hy
    rw [slab_int, slab_int, window_whole nd hy, window_whole nd' (by omega)]
    exact ⟨rfl, rfl⟩
  have beyond : ∀ x y : Int, ¬ (gmin.get a b ≤ y ∧ y ≤ gmax.get a b) →
      Pandora.windowCost hw ker s'.left.img (slabImg w'.run.zoom s'.right.img 1 (x : K)) gmin' gmax' a b (y : K) = .nan ∧
      Pandora.windowCost hw ker s.left.img (slabImg w.run.zoom s.right.img 1 (x : K)) gmin gmax a b (y : K) = .nan := by
    intro x y hy
    have t : ¬ Pandora.windowOk hw s.left.img (slabImg w.run.zoom s.right.img 1 (x : K)) gmin gmax a b (y : K) := fun q => hy (by
      have := q.2.2.1
      exact ⟨Int.cast_le.1 this.1, Int.cast_le.1 this.2⟩)
    have t' : ¬ Pandora.windowOk hw s'.left.img (slabImg w'.run.zoom s'.right.img 1 (x : K)) gmin' gmax' a b (y : K) := fun q => hy (by
      have := q.2.2.1
      have w1 := Int.cast_le.1 this.1
      have w2 := Int.cast_le.1 this.2
      omega)
    unfold Pandora.windowCost
    rw [if_neg t, if_neg t']
    exact ⟨rfl, rfl⟩
  have sizes : (s'.left.img.h = s.left.img.h ∧ s'.left.img.w = s.left.img.w) ∧ s'.right.img.h = s.right.img.h ∧ s'.right.img.w = s.right.img.w := by
    omega
  have less : ∀ x y : Int, Pandora.windowCost hw ker s.left.img (slabImg w.run.zoom s.right.img 1 (x : K)) gmin gmax a b (y : K) = .nan →
      Pandora.windowCost hw ker s'.left.img (slabImg w'.run.zoom s'.right.img 1 (x : K)) gmin' gmax' a b (y : K) = .nan := by
    intro x y q
    by_cases hy : gmin.get a b ≤ y ∧ y ≤ gmax.get a b
    · rw [(whole x y hy).1] at q
      rw [(whole x y hy).2]
      exact wholeCost_less tl tr sizes.1 sizes.2 q
    · exact (beyond x y hy).1
  have points : ∀ {c : Arr1 K} {x y : Int} {i : Nat}, FullLattice c x y 1 → i < c.n → ∃ k : Int, c.get i = (k : K) ∧ x ≤ k ∧ k ≤ y := by
    intro c x y i hc hi
    have e := lattice_get hc i hi
    have e' := lattice_get hc (c.n - 1) (by omega)
    rw [hc.last] at e'
    rw [Nat.cast_one, div_one] at e e'
    have e1 : c.get i = ((x + i : Int) : K) := by rw [e]; push_cast; rfl
    have e2 : y = x + (c.n - 1 : Nat) := by exact_mod_cast e'
    exact ⟨x + i, e1, by omega, by omega⟩
  have axes := lattice_same hn fx fx'
  have ayes := lattice_same hn fy fy'
  have reads : ∀ x y : K, (ReadDisp dRow' fr' lr' a b x ∧ ReadDisp dCol' fc' lc' a b y) ↔ (ReadDisp dRow fr' lr' a b x ∧ ReadDisp dCol fc' lc' a b y) := by
    intro x y
    unfold ReadDisp
    rw [← u1, ← u2, ← v1, ← v2]
  constructor
  · intro none
    refine p2.empty fun m hm k hk q => ?_
    obtain ⟨x1, x2⟩ := axes
    obtain ⟨y1, y2⟩ := ayes
    rw [x1] at hm
    rw [y1] at hk
    rw [x2 m hm, y2 k hk] at q ⊢
    have q := (reads _ _).1 q
    by_cases e : Pandora.windowCost hw ker s.left.img (slabImg w.run.zoom s.right.img 1 (ay.get k)) gmin gmax a b (ax.get m) = .nan
    · obtain ⟨n1, e1, -⟩ := points fx hm
      obtain ⟨n2, e2, -⟩ := points fy hk
      rw [e1, e2] at e ⊢
      exact less _ _ e
    · obtain ⟨_, _, _, y, -, -, -, -, -, -, e', -⟩ := p1.minimised ⟨m, hm, k, hk, q, e⟩
      rw [none] at e'
      simp at e'
  · intro still
    have costs : ∀ x y : Int, fr' - 3 ≤ x → x ≤ lr' + 3 →
        Pandora.windowCost hw ker s'.left.img (slabImg w'.run.zoom s'.right.img 1 (x : K)) gmin' gmax' a b (y : K) =
        Pandora.windowCost hw ker s.left.img (slabImg w.run.zoom s.right.img 1 (x : K)) gmin gmax a b (y : K) := by
      intro x y q1 q2
      by_cases hy : gmin.get a b ≤ y ∧ y ≤ gmax.get a b
      · rw [(whole x y hy).1, (whole x y hy).2]
        exact wholeCost_still tl tr sizes.1 sizes.2 (still x y q1 q2 (by omega) (by omega))
      · rw [(beyond x y hy).1, (beyond x y hy).2]
    have hask : ∀ x y : K, AskedPair dRow' dCol' 1 a b x y ↔ AskedPair dRow dCol 1 a b x y := fun x y => by
      unfold AskedPair
      rw [← u1, ← u2, ← v1, ← v2]
    have ea := x1.inside a (by omega) b (by omega)
    rw [o.1, o.2, zero_add, zero_add] at ea
    have b2' : BestPair me (AskedPair dRow dCol 1 a b)
        (fun x y => Pandora.windowCost hw ker s.left.img (slabImg w.run.zoom s.right.img 1 x) gmin gmax a b y) invalid r1 c1 s1 := by
      refine best_congr (fun x y q => ?_) (best_asked hask b2)
      obtain ⟨⟨kx, ky, hx, hy⟩, ⟨q1, q2⟩, -⟩ := q
      rw [Nat.cast_one, mul_one] at hx hy
      subst hx hy
      have q1 := Int.cast_le.1 q1
      have q2 := Int.cast_le.1 q2
      exact costs kx ky (by omega) (by omega)
    obtain ⟨rfl, rfl, -⟩ := BestPair.unique b1 b2'
    refine interp_same he axes ayes ⟨fx.pos, fy.pos⟩ (fun m hm k hk => ⟨(reads _ _).symm, ?_⟩) p1 p2
    obtain ⟨n1, e1, -⟩ := points fx hm
    obtain ⟨n2, e2, t1, t2⟩ := points fy hk
    rw [e1, e2]
    exact costs _ _ t1 t2

/-- C151, with a dichotomy which starts from disparities of whole pixels. Two successful executions on full images, without estimation, with the same window
cost, intervals, iterations, kernel and invalid value, which is not a number less than one away from a row interval: the second has more pixels flagged as
no-data or invalid in its left image, and more no-data values in its right image. At each pixel, when the first has the invalid row disparity, the
second has invalid disparities and no score; and when all the pairs of windows displaced by the disparities of the pixel, widened by the margins of
the kernel, which could be compared in the first can be compared in the second, the three values are the same. -/
theorem C151_more_nodata_dichotomy (w w' : World K) (user user' p p' mc mc' inp inp' l r l' r' f f' : Fields) (out out' : List (Written K))
    (H W : Nat) (dRow dCol dRow' dCol' : Disp) (invalid : F K) (hw : Nat) (me : Measure) (ker : List (F K × F K) → F K) (it : Nat) (g : Kernel K)
    (wf : user.wf) (wf' : user'.wf)
    (hdisk : DiskContract w H W) (hpan : PandoraContract w) (hkeeps : PandoraKeeps w.pandora) (hzoom : w.run.zoom = zoomLinear)
    (hdisk' : DiskContract w' H W) (hpan' : PandoraContract w') (hkeeps' : PandoraKeeps w'.pandora) (hzoom' : w'.run.zoom = zoomLinear)
    (cfg : Dichotomised w user p mc inp l r f H W dRow dCol invalid 1 hw me ker it g)
    (cfg' : Dichotomised w' user' p' mc' inp' l' r' f' H W dRow' dCol' invalid 1 hw me ker it g) (hHW : 2 ≤ H ∧ 2 ≤ W)
    (hinv : ∀ x, invalid = .fin x → ∀ a < H, ∀ b < W,
      x ≤ ((initAt dRow a b - dRow.range - 1 : Int) : K) ∨ ((initAt dRow a b + dRow.range + 1 : Int) : K) ≤ x)
    (hnd : ∀ left right, ImagesRead w l r none left right → right.noData ≠ .nan)
    (hnd' : ∀ left right, ImagesRead w' l' r' none left right → right.noData ≠ .nan)
    (himg : ∀ left right left' right', ImagesRead w l r none left right → ImagesRead w' l' r' none left' right' →
      MoreFlags left left' ∧ MoreNoData right right')
    (ir : ∀ x < H, ∀ y < W, SameIntervalMoved dRow dRow' x y x y) (ic : ∀ x < H, ∀ y < W, SameIntervalMoved dCol dCol' x y x y)
    (h : Main.main w user = (out, none)) (h' : Main.main w' user' = (out', none)) :
    ∃ files rest files' rest' left right left' right', out = .rasters files :: rest ∧ out' = .rasters files' :: rest' ∧
      ImagesRead w l r none left right ∧ ImagesRead w' l' r' none left' right' ∧
      (∀ f ∈ [files.row, files.col, files.score], f.h = H ∧ f.w = W) ∧ (∀ f ∈ [files'.row, files'.col, files'.score], f.h = H ∧ f.w = W) ∧
      ∀ a < H, ∀ b < W,
        (files.row.values a b = invalid → files'.row.values a b = invalid ∧ files'.col.values a b = invalid ∧ files'.score.values a b = .nan) ∧
        ((∀ u v : Int, ReadPair (K := K) dRow dCol 1 g.before (g.size - 1 - g.before) a b u v →
            Comparable hw left right a b u v → Comparable hw left' right' a b u v) →
          files'.row.values a b = files.row.values a b ∧ files'.col.values a b = files.col.values a b ∧
            files'.score.values a b = files.score.values a b) := by
  obtain ⟨s⟩ := dichotomised_stages cfg wf hpan h
  obtain ⟨s'⟩ := dichotomised_stages cfg' wf' hpan' h'
  obtain ⟨k, fr, lr, fc, lc, gmin, gmax, hk, im, ⟨sl, sr⟩, o, ⟨x1, x2⟩, hg, z, key⟩ := s.dichotomised cfg wf hdisk hkeeps hzoom hHW
  obtain ⟨k', fr', lr', fc', lc', gmin', gmax', hk', im', ⟨sl', sr'⟩, o', ⟨x1', x2'⟩, hg', z', key'⟩ :=
    s'.dichotomised cfg' wf' hdisk' hkeeps' hzoom' hHW
  obtain rfl : k' = k := Nat.pow_right_injective (le_refl 2) (hk'.symm.trans hk)
  obtain rfl : k' = 0 := by
    rcases Nat.eq_zero_or_pos k' with q | q
    · exact q
    · have := Nat.one_lt_two_pow (n := k') (by omega)
      omega
  obtain ⟨tl, tr⟩ := himg _ _ _ _ im im'
  have nd := hnd _ _ im
  have nd' := hnd' _ _ im'
  obtain ⟨rfl, rfl⟩ := extent_same sl sl' o o' ir x1 x1'
  obtain ⟨rfl, rfl⟩ := extent_same sl sl' o o' ic x2 x2'
  have sizes : (s'.left.img.h = s.left.img.h ∧ s'.left.img.w = s.left.img.w) ∧ s'.right.img.h = s.right.img.h ∧ s'.right.img.w = s.right.img.w := by
    omega
  refine ⟨s.files, _, s'.files, _, _, _, _, _, s.outIs, s'.outIs, im, im', z, z', fun a ha b hb => ?_⟩
  obtain ⟨r0, c0, s0, cost, e1, b1, p1⟩ := key a ha b hb
  obtain ⟨r1, c1, s1, cost', e2, b2, p2⟩ := key' a ha b hb
  obtain ⟨g1, g2⟩ := hg a ha b hb
  obtain ⟨g1', g2'⟩ := hg' a ha b hb
  obtain ⟨i1, i2⟩ := ir a ha b hb
  obtain ⟨j1, j2⟩ := ic a ha b hb
  have whole : ∀ x y : Int, gmin.get a b ≤ y ∧ y ≤ gmax.get a b → cost (x : K) (y : K) = wholeCost hw ker s.left.img s.right.img a b x y ∧
      cost' (x : K) (y : K) = wholeCost hw ker s'.left.img s'.right.img a b x y := by
    intro x y hy
    rw [e1, e2, slab_int, slab_int, window_whole nd hy, window_whole nd' (by omega)]
    exact ⟨rfl, rfl⟩
  constructor
  · intro none
    have empty : ∀ x y, AskedPair dRow dCol 1 a b x y → cost x y = .nan := by
      by_contra hc
      push Not at hc
      obtain ⟨x, y, hr, hc, ⟨y1, ask, -⟩, -⟩ := b1.smallest hc
      obtain ⟨-, ⟨q1, q2⟩, -⟩ := ask
      have far : ∀ x', |x' - x| < 1 → .fin x' ≠ invalid := by
        intro x' hx' e
        rw [abs_lt] at hx'
        rcases hinv x' e.symm a ha b hb with q | q
        · push_cast at q q1 q2; linarith
        · push_cast at q q1 q2; linarith
      have n0 : r0 ≠ invalid := by
        rw [hr]; exact far x (by simp)
      by_cases u : c0 = invalid
      · exact n0 (by rw [← (p1.unusable (.inr u)).1]; exact none)
      · by_cases t : (AtEnd (initAt dRow a b - dRow.range) (initAt dRow a b + dRow.range) r0 ∨
            AtEnd (initAt dCol a b - dCol.range) (initAt dCol a b + dCol.range) c0) ∨ seen dRow dCol fr' lr' fc' lc' a b cost x y = .nan
        · exact n0 (by rw [← (p1.kept x y hr hc n0 u t).1]; exact none)
        · push Not at t
          obtain ⟨x', y', v', f1, f2, f3, path⟩ := p1.searched x y hr hc n0 u (by rw [not_or]; exact t.1) t.2
          refine far x' ?_ (f1.symm.trans none)
          have := (path_near path (Nat.zero_le _) t.2).1
          have pos : (0 : K) < 1 / 2 ^ it := by positivity
          rw [pow_zero, div_one] at this
          linarith
    have empty' : ∀ x y, AskedPair dRow' dCol' 1 a b x y → cost' x y = .nan := by
      rintro x y ⟨⟨kx, ky, hx, hy⟩, ⟨q1, q2⟩, q3, q4⟩
      rw [← i1] at q1
      rw [← i2] at q2
      rw [← j1] at q3
      rw [← j2] at q4
      have e := empty x y ⟨⟨kx, ky, hx, hy⟩, ⟨q1, q2⟩, q3, q4⟩
      rw [Nat.cast_one, mul_one] at hx hy
      subst hx hy
      have q3 := Int.cast_le.1 q3
      have q4 := Int.cast_le.1 q4
      obtain ⟨w1, w2⟩ := whole kx ky (by omega)
      rw [w1] at e
      rw [w2]
      exact wholeCost_less tl tr sizes.1 sizes.2 e
    obtain ⟨n1, n2, -⟩ := b2.invalid empty'
    obtain ⟨m1, m2, m3⟩ := p2.unusable (.inl n1)
    exact ⟨m1.trans n1, m2.trans n2, m3⟩
  · intro still
    refine searched_moved hk (ir a ha b hb) (ic a ha b hb) (fun x y q => ?_) b1 p1 b2 p2
    have q' := q
    obtain ⟨⟨kx, ky, hx, hy⟩, -, u3, u4⟩ := q
    rw [Nat.cast_one, mul_one] at hx hy
    subst hx hy
    have u3 := Int.cast_le.1 u3
    have u4 := Int.cast_le.1 u4
    obtain ⟨w1, w2⟩ := whole kx ky (by omega)
    rw [w1, w2]
    exact wholeCost_still tl tr sizes.1 sizes.2 (still kx ky q')

/-! ## Examples -/

theorem exMore (nd : F ℚ) (hole hole' : Nat → Nat → Bool) (fl fr : Nat → Nat → F ℚ) (hh : ∀ x y, hole x y = true → hole' x y = true) :
    MoreFlags (exImgSix fl) (exFlagged (.fin 0) fl) ∧ MoreNoData (exHoled nd hole fr) (exHoled nd hole' fr) := by
  refine ⟨⟨fun x _ y _ q => ⟨rfl, ?_⟩, fun _ _ _ _ _ => rfl⟩, rfl, fun x _ y _ => ?_⟩
  · have : ¬ (x = 0 ∧ y = 0) := by
      intro e
      simp [Pandora.noDataAt, exFlagged, exImgSix, exLeftImg, e] at q
    simp only [exFlagged, exImgSix, this, if_false]
  · simp only [exHoled, exImgSix]
    cases q : hole x y
    · cases hole' x y <;> simp
    · simp [hh x y q]

/-- A flag on the first pixel only matters for the windows which hold it. -/
theorem exMore_far (right : Img ℚ) (fl : Nat → Nat → F ℚ) {a b : Nat} {u v : Int} (far : 1 < a ∨ 1 < b)
    (h : Comparable 1 (exImgSix fl) right a b u v) : Comparable 1 (exFlagged (.fin 0) fl) right a b u v := by
  obtain ⟨h1, h2, h3, h4⟩ := h
  refine ⟨h1, fun x y x1 x2 y1 y2 => ?_, ?_, h4⟩
  · have : ¬ (x = 0 ∧ y = 0) := by omega
    simp [Pandora.noDataAt, exFlagged, exImgSix, exLeftImg, this]
  · have : ¬ (a = 0 ∧ b = 0) := by omega
    simp [Pandora.invalidAt, exFlagged, exImgSix, exLeftImg, this]

/-- With an interpolation, whatever the images and their no-data: with more of it in the right image and a flag in the left one, no pixel gets a
disparity. Without more of it in the right image, the pixels away from the flag are the same. -/
example (nd : ℚ) (hole hole' : Nat → Nat → Bool) (fl fr : Nat → Nat → F ℚ) (hh : ∀ x y, hole x y = true → hole' x y = true) :
    ∃ files rest files' rest',
    Main.main (exWorldImgs (exImgSix fl) (exHoled (.fin nd) hole fr)) exUserSmooth = (.rasters files :: rest, none) ∧
    Main.main (exWorldImgs (exFlagged (.fin 0) fl) (exHoled (.fin nd) hole' fr)) exUserSmooth = (.rasters files' :: rest', none) ∧
    ∀ a < 6, ∀ b < 6,
      (files.row.values a b = .nan → files'.row.values a b = .nan ∧ files'.col.values a b = .nan ∧ files'.score.values a b = .nan) ∧
      (hole' = hole → 1 < a ∨ 1 < b → files'.row.values a b = files.row.values a b ∧ files'.col.values a b = files.col.values a b ∧
        files'.score.values a b = files.score.values a b) := by
  have sl : exSized (exImgSix fl) := ⟨⟨rfl, rfl⟩, rfl, rfl⟩
  have sl' : exSized (exFlagged (.fin 0) fl) := ⟨⟨rfl, rfl⟩, rfl, rfl⟩
  have sr : ∀ hole, exSized (exHoled (.fin nd) hole fr) := fun _ => ⟨⟨rfl, rfl⟩, rfl, rfl⟩
  obtain ⟨_, _, _, _, cfg⟩ := exSmooth_cfg (exImgSix fl) (exHoled (.fin nd) hole fr)
  obtain ⟨_, _, _, _, cfg'⟩ := exSmooth_cfg (exFlagged (.fin 0) fl) (exHoled (.fin nd) hole' fr)
  have ct := exWorldImgs_contract sl (sr hole)
  have ct' := exWorldImgs_contract sl' (sr hole')
  have h1 := exSmooth_runs sl (sr hole)
  have h2 := exSmooth_runs sl' (sr hole')
  obtain ⟨files, rest, files', rest', left, right, left', right', _, _, o, o', i, i', -, -, -, key⟩ :=
    C151_more_nodata_interpolation _ _ _ _ _ _ _ _ _ _ _ _ _ _ _ _ _ _ 6 6
    _ _ _ _ _ _ _ _ _ _ _ _ exUserSmooth_wf exUserSmooth_wf ct.disk ct.pandora ct.keeps ct'.disk ct'.pandora ct'.keeps
    rfl exI_bounds exI_reads cfg cfg'
    (fun left right i => by obtain ⟨rfl, rfl⟩ := exWorldImgs_images i; simp [exHoled])
    (fun left right i => by obtain ⟨rfl, rfl⟩ := exWorldImgs_images i; simp [exHoled])
    (fun left right left' right' i i' => by
      obtain ⟨rfl, rfl⟩ := exWorldImgs_images i
      obtain ⟨rfl, rfl⟩ := exWorldImgs_images i'
      exact exMore _ _ _ _ _ hh) (fun _ _ _ _ => ⟨rfl, rfl⟩) (fun _ _ _ _ => ⟨rfl, rfl⟩) h1 h2
  obtain ⟨rfl, rfl⟩ := exWorldImgs_images i
  obtain ⟨rfl, rfl⟩ := exWorldImgs_images i'
  refine ⟨files, rest, files', rest', by rw [h1]; exact congrArg (·, none) o, by rw [h2]; exact congrArg (·, none) o', fun a ha b hb => ?_⟩
  obtain ⟨k1, k2⟩ := key a b a b a b (by omega) (by omega) (by omega) (by omega) ha hb
  refine ⟨k1, ?_⟩
  rintro rfl far
  exact k2 fun u v _ _ _ _ => exMore_far _ fl far

/-- With a dichotomy, in the same way. -/
example (nd : ℚ) (hole hole' : Nat → Nat → Bool) (fl fr : Nat → Nat → F ℚ) (hh : ∀ x y, hole x y = true → hole' x y = true) :
    ∃ files rest files' rest',
    Main.main (exWorldImgs (exImgSix fl) (exHoled (.fin nd) hole fr)) (exUserBoxFull 0 1) = (.rasters files :: rest, none) ∧
    Main.main (exWorldImgs (exFlagged (.fin 0) fl) (exHoled (.fin nd) hole' fr)) (exUserBoxFull 0 1) = (.rasters files' :: rest', none) ∧
    ∀ a < 6, ∀ b < 6,
      (files.row.values a b = .nan → files'.row.values a b = .nan ∧ files'.col.values a b = .nan ∧ files'.score.values a b = .nan) ∧
      (hole' = hole → 1 < a ∨ 1 < b → files'.row.values a b = files.row.values a b ∧ files'.col.values a b = files.col.values a b ∧
        files'.score.values a b = files.score.values a b) := by
  have sl : exSized (exImgSix fl) := ⟨⟨rfl, rfl⟩, rfl, rfl⟩
  have sl' : exSized (exFlagged (.fin 0) fl) := ⟨⟨rfl, rfl⟩, rfl, rfl⟩
  have sr : ∀ hole, exSized (exHoled (.fin nd) hole fr) := fun _ => ⟨⟨rfl, rfl⟩, rfl, rfl⟩
  obtain ⟨_, _, _, _, cfg⟩ := exImgs_dicho (exImgSix fl) (exHoled (.fin nd) hole fr)
  obtain ⟨_, _, _, _, cfg'⟩ := exImgs_dicho (exFlagged (.fin 0) fl) (exHoled (.fin nd) hole' fr)
  have ct := exWorldImgs_contract sl (sr hole)
  have ct' := exWorldImgs_contract sl' (sr hole')
  have h1 := exImgs_runsDicho sl (sr hole)
  have h2 := exImgs_runsDicho sl' (sr hole')
  obtain ⟨files, rest, files', rest', left, right, left', right', o, o', i, i', -, -, key⟩ :=
    C151_more_nodata_dichotomy _ _ _ _ _ _ _ _ _ _ _ _ _ _ _ _ _ _ 6 6 _ _ _ _ _ _ _ _ _ _
    (exUserBoxFull_wf 0 1) (exUserBoxFull_wf 0 1) ct.disk ct.pandora ct.keeps rfl ct'.disk ct'.pandora ct'.keeps rfl cfg cfg' (by decide)
    (by simp)
    (fun left right i => by obtain ⟨rfl, rfl⟩ := exWorldImgs_images i; simp [exHoled])
    (fun left right i => by obtain ⟨rfl, rfl⟩ := exWorldImgs_images i; simp [exHoled])
    (fun left right left' right' i i' => by
      obtain ⟨rfl, rfl⟩ := exWorldImgs_images i
      obtain ⟨rfl, rfl⟩ := exWorldImgs_images i'
      exact exMore _ _ _ _ _ hh) (fun _ _ _ _ => ⟨rfl, rfl⟩) (fun _ _ _ _ => ⟨rfl, rfl⟩) h1 h2
  obtain ⟨rfl, rfl⟩ := exWorldImgs_images i
  obtain ⟨rfl, rfl⟩ := exWorldImgs_images i'
  refine ⟨files, rest, files', rest', by rw [h1]; exact congrArg (·, none) o, by rw [h2]; exact congrArg (·, none) o', fun a ha b hb => ?_⟩
  obtain ⟨k1, k2⟩ := key a ha b hb
  refine ⟨k1, ?_⟩
  rintro rfl far
  exact k2 fun u v _ => exMore_far _ fl far

end Verif.Props
