import Verif.Spec.Whole
import Verif.Props.Local
import Mathlib.Data.Multiset.Bind

/-!
# C106, C107: rows and columns exchanged, left and right exchanged
-/

namespace Verif.Props

open Verif Verif.Config Verif.Machine Verif.ImgTools Verif.MatchingCost Verif.Disparity Verif.Run Verif.Main Verif.Spec Verif.Save
  Verif.Statistics

set_option linter.unusedSectionVars false

variable {K : Type} [Field K] [LinearOrder K] [IsStrictOrderedRing K] [FloorRing K]

/-- A window cost between whole pixels. -/
theorem window_whole {hw : Nat} {ker : List (F K × F K) → F K} {left right : Img K} (hnd : right.noData ≠ .nan)
    {a b : Nat} {dr dc : Int} {gmin gmax : Arr2 Int} (hg : gmin.get a b ≤ dc ∧ dc ≤ gmax.get a b) :
    Pandora.windowCost hw ker left (shiftDispRow right dr) gmin gmax a b ((dc : Int) : K) = wholeCost hw ker left right a b dr dc := by
  unfold Pandora.windowCost wholeCost
  by_cases h : Comparable hw left right a b dr dc
  · rw [if_pos h, if_pos ((window_ok_whole hnd hg).2 h)]
    obtain ⟨⟨⟨b1, b2, b3, b4⟩, b5, b6, b7, b8⟩, -⟩ := h
    congr 1
    unfold Pandora.windowPairs wholePairs
    refine List.flatMap_congr fun x hx => List.map_congr_left fun y hy => ?_
    rw [List.mem_range] at hx hy
    refine Prod.ext rfl ?_
    have hpos : ((b : Nat) : K) + ((dc : Int) : K) + ((y : Nat) : K) - (hw : K) = (((b : Int) + dc + y - hw : Int) : K) := by push_cast; ring
    show Pandora.sampleCol (shiftDispRow right dr) (a + x - hw) _ = _
    unfold Pandora.sampleCol
    rw [hpos, Int.fract_intCast, if_pos rfl, Int.floor_intCast]
    unfold shiftDispRow
    simp only
    rw [if_pos (by omega)]
    congr 1
    omega
  · rw [if_neg h, if_neg fun q => h ((window_ok_whole hnd hg).1 q)]

section
variable {w : World K} {user p mc inp l r : Fields} {H W : Nat} {dRow dCol : Disp} {sr sc : Nat} {invalid : F K} {hw : Nat} {me : Measure}
  {ker : List (F K × F K) → F K} {out : List (Written K)}

/-- What the rasters of a successful execution on full images hold. -/
theorem full_rasters {n : Nat} (cfg : OnFullImages w user p mc inp l r H W dRow dCol sr sc invalid n hw me ker) (wf : user.wf)
    (hdisk : DiskContract w H W) (hpan : PandoraContract w) (hkeeps : PandoraKeeps w.pandora) (h : Main.main w user = (out, none)) :
    0 < n ∧ ∃ files rest left right, out = .rasters files :: rest ∧ ImagesRead w l r none left right ∧ ((left.h = H ∧ left.w = W) ∧ right.h = H ∧ right.w = W) ∧
      (∀ f ∈ [files.row, files.col, files.score], (∀ i, i < f.h ↔ i * sr < H) ∧ ∀ j, j < f.w ↔ j * sc < W) ∧
      ∀ i < files.row.h, ∀ j < files.row.w, ∃ gmin gmax : Arr2 Int,
        (gmin.get (i * sr) (j * sc) = initAt dCol ((i * sr : Nat) : Int) ((j * sc : Nat) : Int) - dCol.range ∧
          gmax.get (i * sr) (j * sc) = initAt dCol ((i * sr : Nat) : Int) ((j * sc : Nat) : Int) + dCol.range) ∧
        BestPair me (AskedPair dRow dCol n ((i * sr : Nat) : Int) ((j * sc : Nat) : Int))
          (fun x y => Pandora.windowCost hw ker left (slabImg w.run.zoom right n x) gmin gmax (i * sr) (j * sc) y) invalid
          (files.row.values i j) (files.col.values i j) (files.score.values i j) := by
  obtain ⟨pl, mc', disp, a1, a2, a3, a4, a5⟩ := cfg.asks.steps
  rw [cfg.pipeline, Option.some.injEq, J.obj.injEq] at a1
  subst a1
  have hd : "disparity" ∈ p.keys := (Fields.get_isSome p _).1 (by rw [a3]; rfl)
  obtain ⟨s⟩ := main_stages w user p out wf hpan cfg.pipeline hd h
  obtain ⟨hn, dRow', dCol', gmin, gmax, -, i1, i2, i3, i4, i5, -, -, -, i6⟩ :=
    s.winner hdisk hkeeps wf cfg.pipeline cfg.asks.zone (by omega) cfg.noRefinement cfg.cost cfg.matcher
  obtain ⟨-, -, -, -, -, z, -⟩ := s.inRange hdisk wf cfg.pipeline cfg.asks.zone (by omega) cfg.noRefinement
  obtain ⟨j1, j2⟩ := i1 cfg.noEstimation
  obtain ⟨⟨rfl, rfl⟩, ⟨rfl, rfl⟩, rfl⟩ := s.asked wf cfg.pipeline cfg.noEstimation cfg.asks j1 j2
  have him := s.images wf cfg.input cfg.left cfg.right
  have hroi : s.roi = none := by
    have r1 := s.roiFor
    cases hx : s.roi with
    | none => rfl
    | some R =>
      rw [hx] at r1
      obtain ⟨v, hv, -⟩ := r1
      rw [cfg.full] at hv; simp at hv
  rw [hroi] at him i2
  obtain ⟨f1, f2, f3, f4, -⟩ := i2
  have sz : s.right.img.h = H ∧ s.right.img.w = W := by omega
  refine ⟨hn, s.files, _, s.left.img, s.right.img, s.outIs, him, ⟨⟨f3, f4⟩, sz⟩, fun f hf => ?_, fun i hi j hj => ⟨gmin, gmax, ?_⟩⟩
  · have hz := z f hf
    refine ⟨fun i => ?_, fun j => ?_⟩
    · rw [hz.rows]
      have : (((i * s.plan.cfg.stepRow : Nat)) : Int) = (i : Int) * s.plan.cfg.stepRow := by push_cast; rfl
      omega
    · rw [hz.cols]
      have : (((j * s.plan.cfg.stepCol : Nat)) : Int) = (j : Int) * s.plan.cfg.stepCol := by push_cast; rfl
      omega
  · obtain ⟨⟨a, b, ha, hb, e1, e2⟩, key⟩ := i6 i hi j hj
    have ia : (i : Int) * s.plan.cfg.stepRow = ((i * s.plan.cfg.stepRow : Nat) : Int) := by push_cast; rfl
    have ib : (j : Int) * s.plan.cfg.stepCol = ((j * s.plan.cfg.stepCol : Nat) : Int) := by push_cast; rfl
    rw [ia, f1] at e1
    rw [ib, f2] at e2
    rw [ia, ib, f1, f2, zero_add, zero_add, sub_zero, sub_zero, Int.toNat_natCast, Int.toNat_natCast] at key
    have ea : i * s.plan.cfg.stepRow = a := by omega
    have eb : j * s.plan.cfg.stepCol = b := by omega
    rw [ea, eb] at key ⊢
    refine ⟨⟨?_, ?_⟩, key⟩
    · rw [i4 a ha b hb, f1, f2, zero_add, zero_add]; omega
    · rw [i5 a ha b hb, f1, f2, zero_add, zero_add]

/-- With disparities of whole pixels. -/
theorem whole_rasters (cfg : WholePixels w user p mc inp l r H W dRow dCol sr sc invalid hw me ker) (wf : user.wf)
    (hdisk : DiskContract w H W) (hpan : PandoraContract w) (hkeeps : PandoraKeeps w.pandora)
    (hnd : ∀ left right, ImagesRead w l r none left right → right.noData ≠ .nan) (h : Main.main w user = (out, none)) :
    ∃ files rest left right, out = .rasters files :: rest ∧ ImagesRead w l r none left right ∧ ((left.h = H ∧ left.w = W) ∧ right.h = H ∧ right.w = W) ∧
      (∀ f ∈ [files.row, files.col, files.score], (∀ i, i < f.h ↔ i * sr < H) ∧ ∀ j, j < f.w ↔ j * sc < W) ∧
      ∀ i < files.row.h, ∀ j < files.row.w,
        BestPair me (AskedPair dRow dCol 1 ((i * sr : Nat) : Int) ((j * sc : Nat) : Int))
          (fun x y => wholeCost hw ker left right (i * sr) (j * sc) ⌊x⌋ ⌊y⌋) invalid (files.row.values i j) (files.col.values i j)
          (files.score.values i j) := by
  obtain ⟨-, files, rest, left, right, o, im, sz, z, key⟩ := full_rasters cfg wf hdisk hpan hkeeps h
  refine ⟨files, rest, left, right, o, im, sz, z, fun i hi j hj => ?_⟩
  obtain ⟨gmin, gmax, ⟨g1, g2⟩, k⟩ := key i hi j hj
  refine best_congr (fun x y hxy => ?_) k
  obtain ⟨⟨u, v, hx, hy⟩, -, hc⟩ := hxy
  rw [Nat.cast_one, mul_one] at hx hy
  subst hx hy
  rw [slab_int, Int.floor_intCast, Int.floor_intCast]
  refine window_whole (hnd _ _ im) ?_
  rw [g1, g2]
  have h1 := Int.cast_le.1 hc.1
  have h2 := Int.cast_le.1 hc.2
  omega

end

/-- Windows of transposed images, with the two disparities exchanged. -/
theorem comparable_transposed {hw : Nat} {left right left' right' : Img K} (hl : Transposed left left') (hr : Transposed right right')
    (sl : left'.h = left.w ∧ left'.w = left.h) (sr : right'.h = right.w ∧ right'.w = right.h) {a b : Nat} {dr dc : Int}
    (h : Comparable hw left right a b dr dc) : Comparable hw left' right' b a dc dr := by
  obtain ⟨⟨⟨b1, b2, b3, b4⟩, b5, b6, b7, b8⟩, c1, c2, c3⟩ := h
  refine ⟨⟨⟨by omega, by omega, by omega, by omega⟩, by omega, by omega, by omega, by omega⟩, ?_, ?_, ?_⟩
  · intro x y x1 x2 y1 y2
    rw [hl.flags y (by omega) x (by omega)]
    exact c1 y x y1 y2 x1 x2
  · rw [hl.valid a (by omega) b (by omega)]
    exact c2
  · intro x y x1 x2 y1 y2
    rw [hr.values y (by omega) x (by omega), hr.noData]
    exact c3 y x y1 y2 x1 x2

theorem transposed_symm {img img' : Img K} (h : Transposed img img') (s : img'.h = img.w ∧ img'.w = img.h) : Transposed img' img :=
  ⟨h.noData.symm, fun x hx y hy => (h.values y (by omega) x (by omega)).symm, fun x hx y hy => (h.flags y (by omega) x (by omega)).symm,
    fun x hx y hy => (h.valid y (by omega) x (by omega)).symm⟩

theorem flatMap_swap {α β : Type} (l m : List α) (f : α → α → β) :
    (l.flatMap fun x => m.map fun y => f x y).Perm (m.flatMap fun y => l.map fun x => f x y) := by
  rw [← Multiset.coe_eq_coe]
  have := Multiset.bind_map_comm (l : Multiset α) (m : Multiset α) (f := f)
  simpa [Multiset.coe_bind] using this

theorem wholeCost_transposed {hw : Nat} {ker : List (F K × F K) → F K} (hk : OrderFree ker) {left right left' right' : Img K}
    (hl : Transposed left left') (hr : Transposed right right')
    (sl : left'.h = left.w ∧ left'.w = left.h) (sr : right'.h = right.w ∧ right'.w = right.h) (a b : Nat) (dr dc : Int) :
    wholeCost hw ker left' right' b a dc dr = wholeCost hw ker left right a b dr dc := by
  unfold wholeCost
  by_cases h : Comparable hw left right a b dr dc
  · rw [if_pos h, if_pos (comparable_transposed hl hr sl sr h)]
    obtain ⟨⟨⟨b1, b2, b3, b4⟩, b5, b6, b7, b8⟩, -⟩ := h
    refine hk _ _ ?_
    unfold wholePairs
    refine (flatMap_swap _ _ _).trans (List.Perm.of_eq ?_)
    refine List.flatMap_congr fun x hx => List.map_congr_left fun y hy => ?_
    rw [List.mem_range] at hx hy
    rw [hl.values _ (by omega) _ (by omega), hr.values _ (by omega) _ (by omega)]
  · rw [if_neg h, if_neg fun q => h ?_]
    exact comparable_transposed (transposed_symm hl sl) (transposed_symm hr sr) (by omega) (by omega) q

/-- The best pair when the two disparities are exchanged. -/
theorem best_exchanged {m : Measure} {asked : K → K → Prop} {cost : K → K → F K} {invalid r c s : F K}
    (h : BestPair m asked cost invalid r c s) : BestPair m (fun x y => asked y x) (fun x y => cost y x) invalid c r s := by
  have sw : (∃ x y, asked y x ∧ cost y x ≠ .nan) → ∃ x y, asked x y ∧ cost x y ≠ .nan := fun ⟨x, y, q⟩ => ⟨y, x, q⟩
  refine ⟨fun hn => ?_, fun he => ?_, fun he => ?_⟩
  · obtain ⟨e1, e2, e3⟩ := h.invalid fun x y q => hn y x q
    exact ⟨e2, e1, e3⟩
  · obtain ⟨⟨q1, x, y, q2, q3⟩, q4⟩ := h.best (sw he)
    exact ⟨⟨q1, y, x, q2, q3⟩, fun z ⟨z1, x, y, z2, z3⟩ => q4 z ⟨z1, y, x, z2, z3⟩⟩
  · obtain ⟨dr, dc, e1, e2, ⟨y, y1, y2⟩, ⟨x, x1, x2⟩, g⟩ := h.smallest (sw he)
    exact ⟨dc, dr, e2, e1, ⟨x, x1, x2⟩, ⟨y, y1, y2⟩, fun x y q1 q2 => (g y x q1 q2).symm⟩

/-- C106: exchanging the rows and the columns of the images exchanges the two disparities. Two successful executions on full images, without
estimation nor refinement, with disparities of whole pixels and the same window cost, whose measure does not depend on the order of the pixels
in the window: the images of the second have the rows of the first as columns, with their masks, and its intervals of row disparities are the
intervals of column disparities of the first, and conversely. At each pixel of the rasters of the first which is, transposed, a pixel of the
rasters of the second, the row disparity of the first is the column disparity of the second, and conversely, and the scores are the same,
except that each execution has its own invalid value. -/
theorem C106_transposed (w w' : World K) (user user' p p' mc mc' inp inp' l r l' r' : Fields) (out out' : List (Written K)) (H W : Nat)
    (dRow dCol dRow' dCol' : Disp) (sr sc sr' sc' : Nat) (invalid invalid' : F K) (hw : Nat) (me : Measure)
    (ker : List (F K × F K) → F K) (wf : user.wf) (wf' : user'.wf)
    (hdisk : DiskContract w H W) (hpan : PandoraContract w) (hkeeps : PandoraKeeps w.pandora)
    (hdisk' : DiskContract w' W H) (hpan' : PandoraContract w') (hkeeps' : PandoraKeeps w'.pandora)
    (cfg : WholePixels w user p mc inp l r H W dRow dCol sr sc invalid hw me ker)
    (cfg' : WholePixels w' user' p' mc' inp' l' r' W H dRow' dCol' sr' sc' invalid' hw me ker) (hk : OrderFree ker)
    (himg : ∀ left right left' right', ImagesRead w l r none left right → ImagesRead w' l' r' none left' right' →
      Transposed left left' ∧ Transposed right right')
    (hnd : ∀ left right, ImagesRead w l r none left right → right.noData ≠ .nan)
    (hr : TransposedIntervals dRow dCol' H W) (hc : TransposedIntervals dCol dRow' H W)
    (h : Main.main w user = (out, none)) (h' : Main.main w' user' = (out', none)) :
    ∃ files rest files' rest', out = .rasters files :: rest ∧ out' = .rasters files' :: rest' ∧
      (∀ f ∈ [files.row, files.col, files.score], (∀ i, i < f.h ↔ i * sr < H) ∧ ∀ j, j < f.w ↔ j * sc < W) ∧
      (∀ f ∈ [files'.row, files'.col, files'.score], (∀ i, i < f.h ↔ i * sr' < W) ∧ ∀ j, j < f.w ↔ j * sc' < H) ∧
      ∀ i j i' j' : Nat, i < files.row.h → j < files.row.w → i' < files'.row.h → j' < files'.row.w → i * sr = j' * sc' → j * sc = i' * sr' →
        SamePixel invalid invalid' (files.row.values i j) (files.col.values i j) (files.score.values i j)
          (files'.col.values i' j') (files'.row.values i' j') (files'.score.values i' j') := by
  obtain ⟨files, rest, left, right, o, im, ⟨s1, s2⟩, z, key⟩ := whole_rasters cfg wf hdisk hpan hkeeps hnd h
  have hnd' : ∀ left' right', ImagesRead w' l' r' none left' right' → right'.noData ≠ .nan := fun left' right' q => by
    rw [(himg _ _ _ _ im q).2.noData]; exact hnd _ _ im
  obtain ⟨files', rest', left', right', o', im', ⟨s1', s2'⟩, z', key'⟩ := whole_rasters cfg' wf' hdisk' hpan' hkeeps' hnd' h'
  obtain ⟨tl, tr⟩ := himg _ _ _ _ im im'
  refine ⟨files, rest, files', rest', o, o', z, z', fun i j i' j' hi hj hi' hj' e1 e2 => ?_⟩
  have k := key i hi j hj
  have k' := best_exchanged (key' i' hi' j' hj')
  have bi : i * sr < H := ((z _ List.mem_cons_self).1 i).1 hi
  have bj : j * sc < W := ((z _ List.mem_cons_self).2 j).1 hj
  rw [← e1, ← e2] at k'
  generalize i * sr = a at k k' bi
  generalize j * sc = b at k k' bj
  obtain ⟨r1, r2⟩ := hr a bi b bj
  obtain ⟨c1, c2⟩ := hc a bi b bj
  refine best_same k (best_congr (fun x y _ => wholeCost_transposed hk tl tr (by omega) (by omega) a b _ _) (best_asked (fun x y => ?_) k'))
  unfold AskedPair
  rw [r1, r2, c1, c2]
  tauto

/-! ## Left and right exchanged -/

/-- Windows which can be compared can be compared from the other image. -/
theorem comparable_exchanged {hw : Nat} {left right left' right' : Img K} (h1 : SameValues right left') (h2 : SameValues left right')
    (s1 : left'.h = right.h ∧ left'.w = right.w) (s2 : right'.h = left.h ∧ right'.w = left.w) (m : FaithfulMask left)
    (m' : FaithfulMask left') {a b a' b' : Nat} {x y : Int} (ea : (a' : Int) = a + x) (eb : (b' : Int) = b + y)
    (h : Comparable hw left right a b x y) : Comparable hw left' right' a' b' (-x) (-y) := by
  obtain ⟨⟨⟨b1, b2, b3, b4⟩, b5, b6, b7, b8⟩, c1, c2, c3⟩ := h
  refine ⟨⟨⟨by omega, by omega, by omega, by omega⟩, by omega, by omega, by omega, by omega⟩, ?_, ?_, ?_⟩
  · intro u v u1 u2 v1 v2
    rw [← Bool.not_eq_true, m'.exact u (by omega) v (by omega), h1.2 u (by omega) v (by omega), h1.1]
    exact c3 u v (by omega) (by omega) (by omega) (by omega)
  · exact m'.valid _ (by omega) _ (by omega)
  · intro u v u1 u2 v1 v2
    rw [h2.2 u (by omega) v (by omega), h2.1]
    have := c1 u v (by omega) (by omega) (by omega) (by omega)
    rw [← Bool.not_eq_true, m.exact u (by omega) v (by omega)] at this
    exact this

theorem pairs_exchanged {hw : Nat} {left right left' right' : Img K} (h1 : SameValues right left') (h2 : SameValues left right')
    {a b a' b' : Nat} {x y : Int} (ea : (a' : Int) = a + x) (eb : (b' : Int) = b + y) (h : BothInside hw left right x y a b) :
    wholePairs hw left' right' a' b' (-x) (-y) = (wholePairs hw left right a b x y).map Prod.swap := by
  obtain ⟨⟨b1, b2, b3, b4⟩, b5, b6, b7, b8⟩ := h
  unfold wholePairs
  rw [List.map_flatMap]
  refine List.flatMap_congr fun u hu => ?_
  rw [List.map_map]
  refine List.map_congr_left fun v hv => ?_
  rw [List.mem_range] at hu hv
  have e1 : ((a' : Int) + -x + u - hw).toNat = a + u - hw := by omega
  have e2 : ((b' : Int) + -y + v - hw).toNat = b + v - hw := by omega
  have e3 : ((a : Int) + x + u - hw).toNat = a' + u - hw := by omega
  have e4 : ((b : Int) + y + v - hw).toNat = b' + v - hw := by omega
  simp only [Function.comp, Prod.swap_prod_mk]
  rw [e1, e2, e3, e4, h1.2 _ (by omega) _ (by omega), h2.2 _ (by omega) _ (by omega)]

/-- C107: exchanging the left and the right images. Two successful executions on full images, without estimation nor refinement, with
disparities of whole pixels and the same window cost, whose measure does not distinguish the two windows: the left image of the second holds
the values of the right image of the first, its right image those of the left image of the first, and the masks of the two left images flag
exactly the no-data values. Each pixel of the rasters of the first holds the invalid value three times, or its row disparity and its column
disparity each belong to a pair of disparities which reaches its score, and every pair `(x, y)` of its intervals which reaches its score leads
to a pixel whose score in the second execution is at least as good, if this pixel is in the rasters and has `(-x, -y)` in its intervals. -/
theorem C107_goes_back (w w' : World K) (user user' p p' mc mc' inp inp' l r l' r' : Fields) (out out' : List (Written K)) (H W : Nat)
    (dRow dCol dRow' dCol' : Disp) (sr sc sr' sc' : Nat) (invalid invalid' : F K) (hw : Nat) (me : Measure)
    (ker : List (F K × F K) → F K) (wf : user.wf) (wf' : user'.wf)
    (hdisk : DiskContract w H W) (hpan : PandoraContract w) (hkeeps : PandoraKeeps w.pandora)
    (hdisk' : DiskContract w' H W) (hpan' : PandoraContract w') (hkeeps' : PandoraKeeps w'.pandora)
    (cfg : WholePixels w user p mc inp l r H W dRow dCol sr sc invalid hw me ker)
    (cfg' : WholePixels w' user' p' mc' inp' l' r' H W dRow' dCol' sr' sc' invalid' hw me ker) (hk : Symmetric ker)
    (himg : ∀ left right left' right', ImagesRead w l r none left right → ImagesRead w' l' r' none left' right' →
      SameValues right left' ∧ SameValues left right' ∧ FaithfulMask left ∧ FaithfulMask left')
    (hnd : ∀ left right, ImagesRead w l r none left right → right.noData ≠ .nan)
    (hnd' : ∀ left right, ImagesRead w' l' r' none left right → right.noData ≠ .nan)
    (h : Main.main w user = (out, none)) (h' : Main.main w' user' = (out', none)) :
    ∃ files rest files' rest' left right, out = .rasters files :: rest ∧ out' = .rasters files' :: rest' ∧ ImagesRead w l r none left right ∧
      (∀ f ∈ [files.row, files.col, files.score], (∀ i, i < f.h ↔ i * sr < H) ∧ ∀ j, j < f.w ↔ j * sc < W) ∧
      (∀ f ∈ [files'.row, files'.col, files'.score], (∀ i, i < f.h ↔ i * sr' < H) ∧ ∀ j, j < f.w ↔ j * sc' < W) ∧
      ∀ i < files.row.h, ∀ j < files.row.w,
        (files.row.values i j = invalid ∧ files.col.values i j = invalid ∧ files.score.values i j = invalid) ∨
        GoesBack (Reaches hw ker left right dRow dCol (i * sr) (j * sc) (files.score.values i j))
          (Answered me dRow' dCol' sr' sc' files'.score.h files'.score.w files'.score.values (files.score.values i j) (i * sr) (j * sc))
          (files.row.values i j) (files.col.values i j) := by
  obtain ⟨files, rest, left, right, o, im, ⟨s1, s2⟩, z, key⟩ := whole_rasters cfg wf hdisk hpan hkeeps hnd h
  obtain ⟨files', rest', left', right', o', im', ⟨s1', s2'⟩, z', key'⟩ := whole_rasters cfg' wf' hdisk' hpan' hkeeps' hnd' h'
  obtain ⟨v1, v2, m, m'⟩ := himg _ _ _ _ im im'
  refine ⟨files, rest, files', rest', left, right, o, o', im, z, z', fun i hi j hj => ?_⟩
  have k := key i hi j hj
  generalize i * sr = a at k ⊢
  generalize j * sc = b at k ⊢
  by_cases he : ∃ x y : K, AskedPair dRow dCol 1 (a : Int) (b : Int) x y ∧ wholeCost hw ker left right a b ⌊x⌋ ⌊y⌋ ≠ .nan
  swap
  · push Not at he
    exact .inl (k.invalid he)
  right
  obtain ⟨⟨hs, -⟩, -⟩ := k.best he
  obtain ⟨dr, dc, e1, e2, ⟨dc', q1, q2⟩, ⟨dr', q3, q4⟩, -⟩ := k.smallest he
  have reach : ∀ x y : K, AskedPair dRow dCol 1 (a : Int) (b : Int) x y → wholeCost hw ker left right a b ⌊x⌋ ⌊y⌋ = files.score.values i j →
      Reaches hw ker left right dRow dCol a b (files.score.values i j) ⌊x⌋ ⌊y⌋ ∧ x = ((⌊x⌋ : Int) : K) ∧ y = ((⌊y⌋ : Int) : K) := by
    intro x y ⟨⟨u, v, hx, hy⟩, hr, hc⟩ hcost
    rw [Nat.cast_one, mul_one] at hx hy
    subst hx hy
    rw [Int.floor_intCast, Int.floor_intCast] at hcost ⊢
    refine ⟨⟨⟨⟨Int.cast_le.1 hr.1, Int.cast_le.1 hr.2⟩, Int.cast_le.1 hc.1, Int.cast_le.1 hc.2⟩, ?_⟩, rfl, rfl⟩
    unfold wholeCost at hcost
    by_cases hcmp : Comparable hw left right a b u v
    · rw [if_pos hcmp] at hcost
      exact ⟨hcmp, hcost⟩
    · rw [if_neg hcmp] at hcost
      exact absurd hcost.symm hs
  refine ⟨?_, ?_, ?_⟩
  · obtain ⟨t1, t2, -⟩ := reach _ _ q1 q2
    exact ⟨_, _, t1, by rw [← t2]; exact e1⟩
  · obtain ⟨t1, -, t2⟩ := reach _ _ q3 q4
    exact ⟨_, _, t1, by rw [← t2]; exact e2⟩
  · intro x y ⟨_, hcmp, hmeas⟩ i' j' hi' hj' ea eb ⟨⟨r1, r2⟩, c1, c2⟩
    have zs := z' files'.score (by simp)
    have zr := z' files'.row (by simp)
    have k' := key' i' ((zr.1 i').2 ((zs.1 i').1 hi')) j' ((zr.2 j').2 ((zs.2 j').1 hj'))
    have hcost : wholeCost hw ker left' right' (i' * sr') (j' * sc') (-x) (-y) = files.score.values i j := by
      unfold wholeCost
      rw [if_pos (comparable_exchanged v1 v2 (by omega) (by omega) m m' ea eb hcmp), pairs_exchanged v1 v2 ea eb hcmp.inside, hk]
      exact hmeas
    rw [ea, eb] at k'
    have ask : AskedPair dRow' dCol' 1 ((a : Int) + x) ((b : Int) + y) (((-x : Int)) : K) (((-y : Int)) : K) :=
      ⟨⟨_, _, by rw [Nat.cast_one, mul_one], by rw [Nat.cast_one, mul_one]⟩,
        ⟨Int.cast_le.2 r1, Int.cast_le.2 r2⟩, Int.cast_le.2 c1, Int.cast_le.2 c2⟩
    have hc' : wholeCost hw ker left' right' (i' * sr') (j' * sc') ⌊(((-x : Int)) : K)⌋ ⌊(((-y : Int)) : K)⌋ = files.score.values i j := by
      rw [Int.floor_intCast, Int.floor_intCast]; exact hcost
    exact (k'.best ⟨_, _, ask, by rw [hc']; exact hs⟩).2 _ ⟨hs, _, _, ask, hc'⟩

/-! ## Measures -/

theorem sumOf_orderFree (f : K → K → K) : OrderFree (sumOf f) := by
  intro l l' h
  induction h with
  | nil => rfl
  | cons x _ ih =>
    obtain ⟨x1, x2⟩ := x
    cases x1 <;> cases x2 <;> simp only [sumOf, ih]
  | swap x y l =>
    obtain ⟨x1, x2⟩ := x
    obtain ⟨y1, y2⟩ := y
    cases x1 <;> cases x2 <;> cases y1 <;> cases y2 <;> simp only [sumOf] <;> cases sumOf f l <;> simp [F.add]; ring
  | trans _ _ h1 h2 => exact h1.trans h2

theorem sumOf_symmetric (f : K → K → K) (hf : ∀ x y, f x y = f y x) : Symmetric (sumOf f) := by
  intro l
  induction l with
  | nil => rfl
  | cons x l ih =>
    obtain ⟨x1, x2⟩ := x
    cases x1 <;> cases x2 <;> simp only [sumOf, List.map_cons, Prod.swap_prod_mk, ih]
    rw [hf]

theorem sad_symmetric : Symmetric (sad (K := K)) := sumOf_symmetric _ fun x y => abs_sub_comm x y

theorem ssd_symmetric : Symmetric (ssd (K := K)) := sumOf_symmetric _ fun x y => by ring

/-! ## Examples -/

/-- Images of three rows and three columns without mask. -/
def exImgT (f : Nat → Nat → F ℚ) : Img ℚ := { exLeftImg with h := 3, im := f }

/-- The images of the example, given by their values. -/
noncomputable def exWorldT (fl fr : Nat → Nat → F ℚ) : World ℚ :=
  { exWorldV with files := { exWorldV.files with read := fun s roi =>
      let img := if isLeftSection s then exImgT fl else exImgT fr
      match roi with
      | none => .ok img
      | some R => .ok (cropImg img R) } }

theorem exWorldT_contract (fl fr : Nat → Nat → F ℚ) : RunContract (exWorldT fl fr) 3 3 := by
  obtain ⟨⟨d1, d2, d3, d4, d5⟩, p, k, r, a, o, i, s⟩ := exWorldV_contract
  refine ⟨⟨d1, d2, d3, ?_, ?_⟩, ⟨p.1, p.2⟩, k, ?_, fun _ _ _ _ => rfl, o, i, s⟩
  · intro v img h
    simp only [exWorldT, Except.ok.injEq] at h
    subst h
    split_ifs <;> exact ⟨rfl, rfl, rfl, rfl⟩
  · intro v R img h h1 h2 h3
    simp only [exWorldT, Except.ok.injEq] at h
    subst h
    have key : ∀ i : Img ℚ, i.h = 3 → i.w = 3 → CropOk (cropImg i R) R 3 3 := by
      intro i hi hi'
      refine ⟨h1, h2, h3, rfl, rfl, ?_, ?_⟩
      · simp only [cropImg, hi]; push_cast at *; omega
      · simp only [cropImg, hi']; push_cast at *; omega
    split_ifs
    · exact key _ rfl rfl
    · exact key _ rfl rfl
  · intro inp l r _ _ _ roi _
    cases roi with
    | none => exact ⟨_, _, rfl, rfl⟩
    | some R => exact ⟨_, _, rfl, rfl⟩

theorem exWorldT_runs (fl fr : Nat → Nat → F ℚ) (n : Int) (hn : n = 1 ∨ n = -1) :
    Main.main (exWorldT fl fr) (exUserSub 1 1 (.int n)) = ((Main.main (exWorldT fl fr) (exUserSub 1 1 (.int n))).1, none) := by
  have : (Main.main (exWorldT fl fr) (exUserSub 1 1 (.int n))).2 = none := by
    obtain ⟨m, cfg, h⟩ := accepted_ok (w := exWorldP) (user := exUserSub 1 1 (.int n)) (by rcases hn with rfl | rfl <;> decide +kernel)
    refine (C99_runs_exactly (exWorldT fl fr) _ _ _ cfg m 3 3 1 1 (exUserSub_wf _ _ _ (by simp [J.wf])) (exWorldT_contract fl fr) rfl ?_ rfl
      (.inl ⟨_, _, rfl, .inl rfl, .inl rfl⟩) rfl ⟨by decide, by decide⟩ (fun _ _ _ _ => ⟨_, _, rfl⟩) h).2 ⟨.inl ⟨rfl, rfl⟩, ?_⟩
    · simp [dict, Fields.keys]
    · intro f hf
      simp [dict, Fields.get] at hf
  exact Prod.ext rfl this

/-- The images read without ROI. -/
theorem exWorldT_images (fl fr : Nat → Nat → F ℚ) (left right : Img ℚ) (h : ImagesRead (exWorldT fl fr) exL exR none left right) :
    left = exImgT fl ∧ right = exImgT fr := by
  obtain ⟨lj, rj, k1, k2, h1, h2⟩ := h
  have g1 := k1 "img" _ rfl rfl
  have g2 := k2 "img" _ rfl rfl
  simp only [exWorldT, Except.ok.injEq] at h1 h2
  have e1 : isLeftSection (.obj lj) = true := by simp [isLeftSection, g1, readValue]
  have e2 : isLeftSection (.obj rj) = false := by simp [isLeftSection, g2, readValue]
  rw [e1, if_pos rfl] at h1
  rw [e2, if_neg (by decide)] at h2
  exact ⟨h1.symm, h2.symm⟩

theorem exWorldT_whole (fl fr : Nat → Nat → F ℚ) (n : Int) :
    ∃ p inp, WholePixels (exWorldT fl fr) (exUserSub 1 1 (.int n)) p (exMc 1 1) inp exL exR 3 3 ⟨.const n, 1⟩ ⟨.const n, 1⟩ 1 1 .nan 0 .min sad :=
  ⟨_, _, rfl, rfl, rfl, rfl, rfl, rfl, rfl, rfl, ⟨_, _, _, _, _, .int 1, rfl, rfl, rfl, .inl rfl, rfl, rfl⟩,
    ⟨⟨_, rfl, ⟨_, _, _, rfl, rfl, rfl, .inl rfl, .inl ⟨_, .inl rfl, rfl⟩⟩, ⟨_, _, _, rfl, rfl, rfl, .inl rfl, .inl ⟨_, .inl rfl, rfl⟩⟩⟩,
    .inr ⟨rfl, rfl, rfl, rfl, rfl⟩,
    ⟨_, _, _, rfl, rfl, rfl, .inl ⟨_, _, rfl, .inl rfl, .inl rfl⟩, .inl ⟨_, rfl, .inr (.inr (.inl ⟨rfl, rfl⟩))⟩⟩⟩⟩

/-- Whatever the two images, exchanging their rows and columns exchanges the disparities. -/
example (fl fr : Nat → Nat → F ℚ) : ∃ files rest files' rest',
    Main.main (exWorldT fl fr) (exUserSub 1 1 (.int 1)) = (.rasters files :: rest, none) ∧
    Main.main (exWorldT (fun x y => fl y x) (fun x y => fr y x)) (exUserSub 1 1 (.int 1)) = (.rasters files' :: rest', none) ∧
    ∀ i < 3, ∀ j < 3, SamePixel .nan .nan (files.row.values i j) (files.col.values i j) (files.score.values i j)
      (files'.col.values j i) (files'.row.values j i) (files'.score.values j i) := by
  obtain ⟨p, inp, cfg⟩ := exWorldT_whole fl fr 1
  obtain ⟨p', inp', cfg'⟩ := exWorldT_whole (fun x y => fl y x) (fun x y => fr y x) 1
  have r := exWorldT_runs fl fr 1 (.inl rfl)
  have r' := exWorldT_runs (fun x y => fl y x) (fun x y => fr y x) 1 (.inl rfl)
  have ct := exWorldT_contract fl fr
  have ct' := exWorldT_contract (fun x y => fl y x) (fun x y => fr y x)
  obtain ⟨files, rest, files', rest', o, o', z, z', key⟩ := C106_transposed _ _ _ _ _ _ _ _ _ _ _ _ _ _ _ _ 3 3 _ _ _ _ 1 1 1 1 _ _ 0 .min sad
    (exUserSub_wf _ _ _ (by simp [J.wf])) (exUserSub_wf _ _ _ (by simp [J.wf])) ct.disk ct.pandora ct.keeps ct'.disk ct'.pandora ct'.keeps
    cfg cfg' (sumOf_orderFree _) (fun left right left' right' h h' => by
      obtain ⟨rfl, rfl⟩ := exWorldT_images _ _ _ _ h
      obtain ⟨rfl, rfl⟩ := exWorldT_images _ _ _ _ h'
      exact ⟨⟨rfl, fun _ _ _ _ => rfl, fun _ _ _ _ => rfl, fun _ _ _ _ => rfl⟩, rfl, fun _ _ _ _ => rfl, fun _ _ _ _ => rfl, fun _ _ _ _ => rfl⟩)
    (fun left right h => by obtain ⟨rfl, rfl⟩ := exWorldT_images _ _ _ _ h; simp [exImgT, exLeftImg])
    (fun _ _ _ _ => ⟨rfl, rfl⟩) (fun _ _ _ _ => ⟨rfl, rfl⟩) r r'
  have b := z _ List.mem_cons_self
  have b' := z' _ List.mem_cons_self
  exact ⟨files, rest, files', rest', by rw [r, o], by rw [r', o'], fun i hi j hj => key i j j i ((b.1 i).2 (by omega)) ((b.2 j).2 (by omega))
    ((b'.1 j).2 (by omega)) ((b'.2 i).2 (by omega)) rfl rfl⟩

theorem exImgT_faithful (f : Nat → Nat → F ℚ) (h : ∀ x < 3, ∀ y < 3, f x y ≠ .fin (-1)) : FaithfulMask (exImgT f) :=
  ⟨fun x hx y hy => ⟨fun q => absurd q (by simp [Pandora.noDataAt, exImgT, exLeftImg]), fun q => absurd q (h x hx y hy)⟩,
    fun _ _ _ _ => rfl⟩

/-- Whatever the two images without no-data, the initial disparities being opposite. -/
example (fl fr : Nat → Nat → F ℚ) (hl : ∀ x < 3, ∀ y < 3, fl x y ≠ .fin (-1)) (hr : ∀ x < 3, ∀ y < 3, fr x y ≠ .fin (-1)) :
    ∃ files rest files' rest',
    Main.main (exWorldT fl fr) (exUserSub 1 1 (.int 1)) = (.rasters files :: rest, none) ∧
    Main.main (exWorldT fr fl) (exUserSub 1 1 (.int (-1))) = (.rasters files' :: rest', none) ∧
    ∀ i < 3, ∀ j < 3, (files.row.values i j = .nan ∧ files.col.values i j = .nan ∧ files.score.values i j = .nan) ∨
      ∃ x y : Int, files.row.values i j = .fin (x : ℚ) ∧ (0 ≤ x ∧ x ≤ 2) ∧ (0 ≤ y ∧ y ≤ 2) ∧ i + x < 3 ∧ j + y < 3 ∧
        AtLeastAsGood .min (files'.score.values (i + x).toNat (j + y).toNat) (files.score.values i j) := by
  obtain ⟨p, inp, cfg⟩ := exWorldT_whole fl fr 1
  obtain ⟨p', inp', cfg'⟩ := exWorldT_whole fr fl (-1)
  have r := exWorldT_runs fl fr 1 (.inl rfl)
  have r' := exWorldT_runs fr fl (-1) (.inr rfl)
  have ct := exWorldT_contract fl fr
  have ct' := exWorldT_contract fr fl
  obtain ⟨files, rest, files', rest', left, right, o, o', im, z, z', key⟩ := C107_goes_back _ _ _ _ _ _ _ _ _ _ _ _ _ _ _ _ 3 3 _ _ _ _ 1 1 1 1
    _ _ 0 .min sad
    (exUserSub_wf _ _ _ (by simp [J.wf])) (exUserSub_wf _ _ _ (by simp [J.wf])) ct.disk ct.pandora ct.keeps ct'.disk ct'.pandora ct'.keeps
    cfg cfg' sad_symmetric (fun left right left' right' h h' => by
      obtain ⟨rfl, rfl⟩ := exWorldT_images _ _ _ _ h
      obtain ⟨rfl, rfl⟩ := exWorldT_images _ _ _ _ h'
      exact ⟨⟨rfl, fun _ _ _ _ => rfl⟩, ⟨rfl, fun _ _ _ _ => rfl⟩, exImgT_faithful _ hl, exImgT_faithful _ hr⟩)
    (fun left right h => by obtain ⟨rfl, rfl⟩ := exWorldT_images _ _ _ _ h; simp [exImgT, exLeftImg])
    (fun left right h => by obtain ⟨rfl, rfl⟩ := exWorldT_images _ _ _ _ h; simp [exImgT, exLeftImg]) r r'
  obtain ⟨rfl, rfl⟩ := exWorldT_images _ _ _ _ im
  have b := z _ List.mem_cons_self
  have b' := z' files'.score (by simp)
  refine ⟨files, rest, files', rest', by rw [r, o], by rw [r', o'], fun i hi j hj => ?_⟩
  rcases key i ((b.1 i).2 (by omega)) j ((b.2 j).2 (by omega)) with q | ⟨⟨x, y, hx, hv⟩, -, ha⟩
  · exact .inl q
  · have hb := ha x y hx
    rw [mul_one, mul_one] at hx hb
    obtain ⟨⟨⟨t1, t2⟩, t3, t4⟩, ⟨⟨-, t5, t6, t7, t8⟩, -⟩, -⟩ := hx
    simp only [initAt, exImgT, exLeftImg] at t1 t2 t3 t4 t5 t6 t7 t8
    refine .inr ⟨x, y, hv, ⟨by omega, by omega⟩, ⟨by omega, by omega⟩, by omega, by omega, ?_⟩
    refine hb _ _ ((b'.1 _).2 (by omega)) ((b'.2 _).2 (by omega)) (by omega) (by omega) ⟨⟨?_, ?_⟩, ?_, ?_⟩ <;> simp only [initAt] <;> omega

end Verif.Props
