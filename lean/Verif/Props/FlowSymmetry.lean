import Verif.Spec.FlowSymmetry
import Verif.Props.Flowed
import Verif.Props.Mirror
import Verif.Props.Overlap

/-!
# C129, C130, C131: an optical flow on images with exchanged axes, on mirrored images and on two frames of a scene
-/

namespace Verif.Props

open Verif Verif.Config Verif.Machine Verif.ImgTools Verif.MatchingCost Verif.Disparity Verif.Run Verif.Main Verif.Spec Verif.Save
  Verif.Statistics Verif.OpticalFlow

set_option linter.unusedSectionVars false

variable {K : Type} [Field K] [LinearOrder K] [IsStrictOrderedRing K] [FloorRing K]

/-! ### One pixel -/

/-- The trajectories of windows which keep a relation `I`, when the motions are related by `τ` or are both the last ones. -/
theorem trajectory_moved_or {flow flow' : Win K → Win K → F K × F K} {warp warp' : Win K → F K → F K → Win K} {left left' : Win K}
    (τ : F K × F K → F K × F K) (I : Win K → Win K → Prop)
    (small : ∀ m, (F.lt (fabs (τ m).1) (.fin 1) ∧ F.lt (fabs (τ m).2) (.fin 1)) ↔ (F.lt (fabs m.1) (.fin 1) ∧ F.lt (fabs m.2) (.fin 1)))
    (sub : ∀ d m, (fsub (τ d).1 (τ m).1, fsub (τ d).2 (τ m).2) = τ (fsub d.1 m.1, fsub d.2 m.2))
    (clips : ∀ m, (clip (τ m).1, clip (τ m).2) = τ (clip m.1, clip m.2))
    (hf : ∀ R R', I R R' → flow' left' R' = τ (flow left R) ∨
      ((¬ (F.lt (fabs (flow left R).1) (.fin 1) ∧ F.lt (fabs (flow left R).2) (.fin 1))) ∧
        (¬ (F.lt (fabs (flow' left' R').1) (.fin 1) ∧ F.lt (fabs (flow' left' R').2) (.fin 1))) ∧
        (clip (flow' left' R').1, clip (flow' left' R').2) = τ (clip (flow left R).1, clip (flow left R).2)))
    (hw : ∀ R R' m, I R R' → I (warp R m.1 m.2) (warp' R' (τ m).1 (τ m).2)) (it : Nat) :
    ∀ R R' d, I R R' → trajectory flow' warp' left' it R' (τ d) = τ (trajectory flow warp left it R d) := by
  induction it with
  | zero => intro R R' d _; rfl
  | succ k ih =>
    intro R R' d h
    simp only [trajectory]
    have last : ∀ m m' : F K × F K, (clip m'.1, clip m'.2) = τ (clip m.1, clip m.2) →
        (fsub (τ d).1 (clip m'.1), fsub (τ d).2 (clip m'.2)) = τ (fsub d.1 (clip m.1), fsub d.2 (clip m.2)) := by
      intro m m' e
      have hd := sub d (clip m.1, clip m.2)
      rw [← e] at hd
      exact hd
    rcases hf R R' h with e | ⟨n1, n2, e⟩
    · rw [e]
      by_cases hs : F.lt (fabs (flow left R).1) (.fin 1) ∧ F.lt (fabs (flow left R).2) (.fin 1)
      · rw [if_pos hs, if_pos ((small _).2 hs), sub]
        exact ih _ _ _ (hw R R' _ h)
      · rw [if_neg hs, if_neg fun q => hs ((small _).1 q)]
        exact last _ _ (clips _)
    · rw [if_neg n1, if_neg n2]
      exact last _ _ e

theorem cells_iff (a : Win K) (p : Nat × Nat) : p ∈ cellsOf a ↔ p.1 < a.h ∧ p.2 < a.w := by
  refine ⟨mem_cells, fun ⟨h1, h2⟩ => ?_⟩
  unfold cellsOf
  rw [List.mem_map]
  refine ⟨p.1 * a.w + p.2, ?_, ?_⟩
  · rw [List.mem_range]
    calc p.1 * a.w + p.2 < p.1 * a.w + a.w := by omega
      _ = (p.1 + 1) * a.w := by ring
      _ ≤ a.h * a.w := Nat.mul_le_mul_right _ h1
  · have hw : 0 < a.w := by omega
    refine Prod.ext ?_ ?_
    · show (p.1 * a.w + p.2) / a.w = p.1
      rw [Nat.mul_comm, Nat.mul_add_div hw, Nat.div_eq_of_lt h2, Nat.add_zero]
    · show (p.1 * a.w + p.2) % a.w = p.2
      rw [Nat.mul_comm, Nat.mul_add_mod, Nat.mod_eq_of_lt h2]

theorem cells_nodup (a : Win K) : (cellsOf a).Nodup := by
  unfold cellsOf
  refine List.nodup_range.map_on fun x _ y _ h => ?_
  have h1 := congrArg Prod.fst h
  have h2 := congrArg Prod.snd h
  simp only at h1 h2
  rw [← Nat.div_add_mod x a.w, ← Nat.div_add_mod y a.w, h1, h2]

/-- The cells of a window, moved. -/
theorem cells_perm {a b : Win K} (σ : Nat × Nat → Nat × Nat) (hinj : ∀ p ∈ cellsOf a, ∀ q ∈ cellsOf a, σ p = σ q → p = q)
    (hmem : ∀ p, p ∈ cellsOf b ↔ ∃ q ∈ cellsOf a, σ q = p) : (cellsOf b).Perm ((cellsOf a).map σ) := by
  refine (List.perm_ext_iff_of_nodup (cells_nodup b) ((cells_nodup a).map_on hinj)).2 fun p => ?_
  rw [hmem, List.mem_map]

/-- The motion between moved windows, or the same failure. -/
theorem lucasKanade_moved {e : Ext K} {left left' right right' : Win K} (σ : Nat × Nat → Nat × Nat)
    (τ : F K × F K → F K × F K) (he : SolvesThrough e τ) (hp : (cellsOf left').Perm ((cellsOf left).map σ))
    (hg : ∀ p ∈ cellsOf left, (gradient1 left'.w (fun j => left'.get (σ p).1 j) (σ p).2, gradient1 left'.h (fun i => left'.get i (σ p).2) (σ p).1) =
      τ (gradient1 left.w (fun j => left.get p.1 j) p.2, gradient1 left.h (fun i => left.get i p.2) p.1))
    (ht : ∀ p ∈ cellsOf left, right'.get (σ p).1 (σ p).2 = right.get p.1 p.2 ∧ left'.get (σ p).1 (σ p).2 = left.get p.1 p.2) :
    e.lstsq (gradMatrix left') (timeMatrix left' right') = (e.lstsq (gradMatrix left) (timeMatrix left right)).map τ := by
  refine he _ _ _ _ (by simp [gradMatrix, timeMatrix]) (by simp [gradMatrix, timeMatrix]) ?_
  unfold gradMatrix timeMatrix
  rw [List.zip_map', List.zip_map', List.map_map]
  refine (hp.map _).trans (List.Perm.of_eq ?_)
  rw [List.map_map]
  refine List.map_congr_left fun p h => ?_
  obtain ⟨t1, t2⟩ := ht p h
  refine Prod.ext (hg p h) ?_
  show fsub _ _ = fsub _ _
  rw [t1, t2]

/-! ### Exchanged axes -/

theorem lucasKanade_exchanged {e : Ext K} (he : SolvesThrough e Prod.swap) {invalid : F K} {left left' right right' : Win K}
    (hsr : right.h = left.h ∧ right.w = left.w) (hs : 2 ≤ left.h ∧ 2 ≤ left.w)
    (hl : WindowExchanged left left') (hr : WindowExchanged right right') :
    lucasKanade e invalid left' right' = (lucasKanade e invalid left right).swap := by
  obtain ⟨⟨s1, s2⟩, vl⟩ := hl
  obtain ⟨-, vr⟩ := hr
  have key := lucasKanade_moved (e := e) (left := left) (left' := left') (right := right) (right' := right')
    Prod.swap Prod.swap he (cells_perm _ (fun p _ q _ h => Prod.swap_injective h) fun p => by
      simp only [cells_iff, s1, s2]
      constructor
      · rintro ⟨h1, h2⟩
        exact ⟨(p.2, p.1), ⟨h2, h1⟩, rfl⟩
      · rintro ⟨q, ⟨h1, h2⟩, rfl⟩
        exact ⟨h2, h1⟩)
    (fun p hp => by
      obtain ⟨h1, h2⟩ := mem_cells hp
      refine Prod.ext ?_ ?_
      · show gradient1 left'.w (fun j => left'.get p.2 j) p.1 = gradient1 left.h (fun i => left.get i p.2) p.1
        rw [s2]
        exact gradient1_congr hs.1 (fun i hi => vl i hi _ h2) h1
      · show gradient1 left'.h (fun i => left'.get i p.1) p.2 = gradient1 left.w (fun j => left.get p.1 j) p.2
        rw [s1]
        exact gradient1_congr hs.2 (fun j hj => vl _ h1 j hj) h2)
    (fun p hp => by
      obtain ⟨h1, h2⟩ := mem_cells hp
      exact ⟨vr p.1 (by omega) p.2 (by omega), vl p.1 h1 p.2 h2⟩)
  unfold lucasKanade
  simp only [key]
  cases e.lstsq (gradMatrix left) (timeMatrix left right) <;> rfl

/-- The refined disparities with exchanged axes. -/
theorem flowPixel_exchanged {e : Ext K} {half it : Nat} {left right left' right' : Img K} {r c lor hir loc hic : Int}
    {invalid r0 c0 row col row' col' : F K} (hhalf : 1 ≤ half) (hsz : KeepsSize e) (hres : ResamplesExchanged e)
    (he : SolvesThrough e Prod.swap) (hl : WindowExchanged (windowOf left half r c) (windowOf left' half c r))
    (hr : ∀ sr sc, WindowExchanged (rightWindow right half (r + sr) (c + sc)) (rightWindow right' half (c + sc) (r + sr)))
    (p : FlowPixel e half it left right r c lor hir loc hic invalid r0 c0 row col)
    (p' : FlowPixel e half it left' right' c r loc hic lor hir invalid c0 r0 row' col') : row' = col ∧ col' = row := by
  obtain ⟨sr, sc, s1, s2, t, rfl, rfl, rfl⟩ := p
  obtain ⟨sr', sc', s1', s2', t', rfl, rfl, rfl⟩ := p'
  obtain rfl := startShift_unique s1 s2'
  obtain rfl := startShift_unique s2 s1'
  have key := trajectory_moved (flow := lucasKanade e invalid) (flow' := lucasKanade e invalid) (warp := e.warp) (warp' := e.warp)
    (left := windowOf left half r c) (left' := windowOf left' half c r) Prod.swap
    (fun R R' => (R.h = 2 * half + 1 ∧ R.w = 2 * half + 1) ∧ WindowExchanged R R') (fun _ => And.comm) (fun _ _ => rfl) (fun _ => rfl)
    (fun R R' h => lucasKanade_exchanged he h.1 ⟨by show 2 ≤ 2 * half + 1; omega, by show 2 ≤ 2 * half + 1; omega⟩ hl h.2)
    (fun R R' m h => ⟨by rw [(hsz _ _ _).1, (hsz _ _ _).2]; exact h.1, hres _ _ _ _ h.2⟩) it _ _ (r0, c0)
    ⟨by unfold rightWindow; split_ifs <;> exact ⟨rfl, rfl⟩, hr sr sc⟩
  have key' : trajectory (lucasKanade e invalid) e.warp (windowOf left' half c r) it (rightWindow right' half (c + sc) (r + sr)) (c0, r0) =
      (trajectory (lucasKanade e invalid) e.warp (windowOf left half r c) it (rightWindow right half (r + sr) (c + sc)) (r0, c0)).swap := key
  rw [key']
  exact ⟨rfl, rfl⟩

theorem window_exchanged {left left' : Img K} (h0 : (left.row0 = 0 ∧ left.col0 = 0) ∧ left'.row0 = 0 ∧ left'.col0 = 0)
    (tl : Transposed left left') {half : Nat} {x y : Int} (hx : (half : Int) ≤ x ∧ x + half < left.h) (hy : (half : Int) ≤ y ∧ y + half < left.w) :
    WindowExchanged (windowOf left half x y) (windowOf left' half y x) := by
  obtain ⟨⟨o1, o2⟩, o3, o4⟩ := h0
  refine ⟨⟨rfl, rfl⟩, fun i hi j hj => ?_⟩
  have hi : i < 2 * half + 1 := hi
  have hj : j < 2 * half + 1 := hj
  show left'.im (y - half - left'.row0 + j).toNat (x - half - left'.col0 + i).toNat =
    left.im (x - half - left.row0 + i).toNat (y - half - left.col0 + j).toNat
  rw [o1, o2, o3, o4]
  exact tl.values _ (by omega) _ (by omega)

theorem right_exchanged {right right' : Img K} (h0 : (right.row0 = 0 ∧ right.col0 = 0) ∧ right'.row0 = 0 ∧ right'.col0 = 0)
    (hs : right'.h = right.w ∧ right'.w = right.h) (tr : Transposed right right') (half : Nat) (x y : Int) :
    WindowExchanged (rightWindow right half x y) (rightWindow right' half y x) := by
  have h0' := h0
  obtain ⟨⟨o1, o2⟩, o3, o4⟩ := h0
  have e : Spec.WindowFits right' half y x ↔ Spec.WindowFits right half x y := by
    unfold Spec.WindowFits
    rw [o1, o2, o3, o4, hs.1, hs.2]
    tauto
  unfold rightWindow
  by_cases hf : Spec.WindowFits right half x y
  · rw [if_pos hf, if_pos (e.2 hf)]
    obtain ⟨f1, f2, f3, f4⟩ := hf
    exact window_exchanged h0' tr (by omega) (by omega)
  · rw [if_neg hf, if_neg fun q => hf (e.1 q)]
    exact ⟨⟨rfl, rfl⟩, fun _ _ _ _ => rfl⟩

/-- The window cost of a pair of disparities of whole pixels. -/
theorem window_asked {zm : Zoom K} {hw : Nat} {ker : List (F K × F K) → F K} {left right : Img K} {gmin gmax : Arr2 Int} {dRow dCol : Disp} {a b : Nat}
    (hne : right.noData ≠ .nan)
    (hg : ∀ y : K, ((initAt dCol (a : Int) (b : Int) - dCol.range : Int) : K) ≤ y → y ≤ ((initAt dCol (a : Int) (b : Int) + dCol.range : Int) : K) →
      ((gmin.get a b : Int) : K) ≤ y ∧ y ≤ ((gmax.get a b : Int) : K)) (x y : K) (hxy : AskedPair dRow dCol 1 (a : Int) (b : Int) x y) :
    Pandora.windowCost hw ker left (slabImg zm right 1 x) gmin gmax a b y = wholeCost hw ker left right a b ⌊x⌋ ⌊y⌋ := by
  obtain ⟨⟨u, v, hx, hy⟩, -, hc⟩ := hxy
  rw [Nat.cast_one, mul_one] at hx hy
  subst hx hy
  rw [slab_int, Int.floor_intCast, Int.floor_intCast]
  have := hg _ hc.1 hc.2
  exact window_whole hne ⟨Int.cast_le.1 this.1, Int.cast_le.1 this.2⟩

theorem asked_exchanged {dRow dCol dRow' dCol' : Disp} {n : Nat} {a b : Int} {x y : K}
    (hr : initAt dRow a b - dRow.range = initAt dCol' b a - dCol'.range ∧ initAt dRow a b + dRow.range = initAt dCol' b a + dCol'.range)
    (hc : initAt dCol a b - dCol.range = initAt dRow' b a - dRow'.range ∧ initAt dCol a b + dCol.range = initAt dRow' b a + dRow'.range) :
    AskedPair dRow' dCol' n b a y x ↔ AskedPair dRow dCol n a b x y := by
  unfold AskedPair
  rw [hr.1, hr.2, hc.1, hc.2]
  exact ⟨fun ⟨⟨u, v, h1, h2⟩, h3, h4⟩ => ⟨⟨v, u, h2, h1⟩, h4, h3⟩, fun ⟨⟨u, v, h1, h2⟩, h3, h4⟩ => ⟨⟨v, u, h2, h1⟩, h4, h3⟩⟩

/-- C129: exchanging the rows and the columns of the images exchanges the two disparities refined by an optical flow. Two successful executions on
full images, without estimation, with disparities of whole pixels before the refinement, the same window cost, whose measure does not depend on the
order of the pixels in the window, the same invalid value, iterations and half window, and exchanged steps: the images of the second have the rows of
the first as columns, with their masks, and its intervals are exchanged. The solver gives exchanged unknowns for exchanged coefficients, whatever the
order of the equations, and the resampling does not distinguish the two axes. At each pixel of the first the row disparity is the column disparity of
the second at the transposed pixel, and conversely, and the scores are the same. -/
theorem C129_transposed_flow (w w' : World K) (user user' p p' mc mc' inp inp' l r l' r' f f' : Fields) (out out' : List (Written K)) (H W : Nat)
    (dRow dCol dRow' dCol' : Disp) (sr sc : Nat) (invalid : F K) (hw : Nat) (me : Measure) (ker : List (F K × F K) → F K) (it half : Nat)
    (wf : user.wf) (wf' : user'.wf)
    (hdisk : DiskContract w H W) (hpan : PandoraContract w) (hkeeps : PandoraKeeps w.pandora) (hoff : OffsetContract w)
    (hdisk' : DiskContract w' W H) (hpan' : PandoraContract w') (hkeeps' : PandoraKeeps w'.pandora) (hoff' : OffsetContract w')
    (cfg : Flowed w user p mc inp l r f H W dRow dCol sr sc invalid 1 hw me ker it half)
    (cfg' : Flowed w' user' p' mc' inp' l' r' f' W H dRow' dCol' sc sr invalid 1 hw me ker it half)
    (hext : w'.run.flow = w.run.flow) (hk : OrderFree ker) (hsz : KeepsSize w.run.flow) (hres : ResamplesExchanged w.run.flow)
    (hsolve : SolvesThrough w.run.flow Prod.swap)
    (himg : ∀ left right left' right', ImagesRead w l r none left right → ImagesRead w' l' r' none left' right' →
      Transposed left left' ∧ Transposed right right')
    (hnd : ∀ left right, ImagesRead w l r none left right → right.noData ≠ .nan)
    (hr : TransposedIntervals dRow dCol' H W) (hc : TransposedIntervals dCol dRow' H W)
    (h : Main.main w user = (out, none)) (h' : Main.main w' user' = (out', none)) :
    ∃ files rest files' rest', out = .rasters files :: rest ∧ out' = .rasters files' :: rest' ∧
      (∀ f ∈ [files.row, files.col, files.score], (∀ i, i < f.h ↔ i * sr < H) ∧ ∀ j, j < f.w ↔ j * sc < W) ∧
      (∀ f ∈ [files'.row, files'.col, files'.score], (∀ i, i < f.h ↔ i * sc < W) ∧ ∀ j, j < f.w ↔ j * sr < H) ∧
      ∀ i < files.row.h, ∀ j < files.row.w,
        files'.col.values j i = files.row.values i j ∧ files'.row.values j i = files.col.values i j ∧
          files'.score.values j i = files.score.values i j := by
  obtain ⟨⟨hn, hh⟩, files, rest, left, right, o, im, ⟨⟨s1, s2⟩, s3, s4⟩, ⟨z1, z2⟩, z, key⟩ := flow_rasters cfg wf hdisk hpan hkeeps hoff h
  obtain ⟨-, files', rest', left', right', o', im', ⟨⟨s1', s2'⟩, s3', s4'⟩, ⟨z1', z2'⟩, z', key'⟩ :=
    flow_rasters cfg' wf' hdisk' hpan' hkeeps' hoff' h'
  obtain ⟨tl, tr⟩ := himg _ _ _ _ im im'
  have hnd1 := hnd _ _ im
  have hnd2 : right'.noData ≠ .nan := by rw [tr.noData]; exact hnd1
  refine ⟨files, rest, files', rest', o, o', z, z', fun i hi j hj => ?_⟩
  have bi : i * sr < H := ((z _ List.mem_cons_self).1 i).1 hi
  have bj : j * sc < W := ((z _ List.mem_cons_self).2 j).1 hj
  obtain ⟨gmin, gmax, g, r0, c0, b1, p1, q1⟩ := key i hi j hj
  obtain ⟨gmin', gmax', g', r1, c1, b2, p2, q2⟩ := key' j (((z' _ List.mem_cons_self).1 j).2 bj) i (((z' _ List.mem_cons_self).2 i).2 bi)
  rw [hext] at p2
  generalize i * sr = a at *
  generalize j * sc = b at *
  obtain ⟨e1, e2⟩ := hr a bi b bj
  obtain ⟨e3, e4⟩ := hc a bi b bj
  rw [← e1, ← e2, ← e3, ← e4] at p2
  have b1' := best_congr (window_asked hnd1 g) b1
  have b2' := best_exchanged (best_congr (window_asked hnd2 g') b2)
  have b3 : BestPair me (AskedPair dRow dCol 1 (a : Int) (b : Int)) (fun x y => wholeCost hw ker left right a b ⌊x⌋ ⌊y⌋) invalid c1 r1
      (files'.score.values j i) :=
    best_congr (fun x y _ => wholeCost_transposed hk tl tr ⟨by omega, by omega⟩ ⟨by omega, by omega⟩ a b ⌊x⌋ ⌊y⌋) (best_asked (fun x y => asked_exchanged ⟨e1, e2⟩ ⟨e3, e4⟩) b2')
  obtain ⟨rfl, rfl, hsc⟩ := BestPair.unique b3 b1'
  by_cases inn : InnerPoint 0 H sr half (a : Int) ∧ InnerPoint 0 W sc half (b : Int)
  · have f1 := innerPoint_fits inn.1
    have f2 := innerPoint_fits inn.2
    obtain ⟨d1, d2⟩ := flowPixel_exchanged hh hsz hres hsolve (window_exchanged ⟨z1, z1'⟩ tl (by omega) (by omega))
      (fun s t => right_exchanged ⟨z2, z2'⟩ ⟨by omega, by omega⟩ tr half _ _) (p1 inn) (p2 inn.symm)
    exact ⟨d2, d1, hsc⟩
  · obtain ⟨y1, y2⟩ := q1 inn
    obtain ⟨y3, y4⟩ := q2 fun q => inn q.symm
    exact ⟨y4.trans y1.symm, y3.trans y2.symm, hsc⟩

/-! ### Mirrored images -/

theorem opposedF_twice (t : Bool) (v : F K) : opposedF t (opposedF t v) = v := by
  cases t <;> cases v <;> simp [opposedF, F.neg]

theorem opposedF_fin (t : Bool) (x : K) : opposedF t (.fin x) = .fin (opposed t x) := by
  cases t <;> simp [opposedF, opposed, F.neg]

theorem fabs_opposed (t : Bool) (v : F K) : fabs (opposedF t v) = fabs v := by
  cases t <;> cases v <;> simp [opposedF, F.neg, fabs]

theorem fsub_opposed (t : Bool) (u v : F K) : fsub (opposedF t u) (opposedF t v) = opposedF t (fsub u v) := by
  cases t <;> cases u <;> cases v <;> simp [opposedF, F.neg, fsub, F.add]
  ring

theorem clip_opposed (t : Bool) (v : F K) : clip (opposedF t v) = opposedF t (clip v) := by
  unfold clip
  rw [fabs_opposed]
  split_ifs
  · cases t <;> simp [opposedF, F.neg]
  · rfl

theorem gradient1_mirrored {n : Nat} (hn : 2 ≤ n) {g g' : Nat → F K} (t : Bool) (h : ∀ i < n, g' (turned t n i) = g i) {i : Nat} (hi : i < n) :
    gradient1 n g' (turned t n i) = opposedF t (gradient1 n g i) := by
  cases t
  · exact gradient1_congr hn h hi
  · have rev : ∀ u v : F K, fsub u v = F.neg (fsub v u) := by
      intro u v
      cases u <;> cases v <;> simp [F.neg, fsub, F.add]
    have half : ∀ u v : F K, F.mul (fsub u v) (.fin (1 / 2)) = F.neg (F.mul (fsub v u) (.fin (1 / 2))) := by
      intro u v
      cases u <;> cases v <;> simp [F.neg, fsub, F.add, F.mul]
      ring
    have get : ∀ k < n, g' k = g (n - 1 - k) := fun k hk => by
      have := h (n - 1 - k) (by omega)
      simp only [turned, if_true] at this
      rw [← this]
      congr 1
      omega
    simp only [turned, opposedF, if_true]
    unfold gradient1
    by_cases h0 : i = 0
    · subst h0
      rw [if_neg (by omega), if_pos (by omega), if_pos rfl, get _ (by omega), get _ (by omega), rev]
      rw [show n - 1 - (n - 1) = 0 by omega, show n - 1 - (n - 2) = 1 by omega]
    · by_cases h1 : i + 1 = n
      · rw [if_pos (by omega), if_neg h0, if_pos h1, get _ (by omega), get _ (by omega), rev]
        rw [show n - 1 - 0 = n - 1 by omega, show n - 1 - 1 = n - 2 by omega]
      · rw [if_neg (by omega), if_neg (by omega), if_neg h0, if_neg h1, get _ (by omega), get _ (by omega), half]
        rw [show n - 1 - (n - 1 - i + 1) = i - 1 by omega, show n - 1 - (n - 1 - i - 1) = i + 1 by omega]

/-- The unknowns of the equations (columns, rows) opposed in the mirrored directions. -/
theorem lstsq_mirrored {tr tc : Bool} {e : Ext K} (he : SolvesThrough e (Prod.map (opposedF tc) (opposedF tr))) {left left' right right' : Win K}
    (hsr : right.h = left.h ∧ right.w = left.w) (hs : 2 ≤ left.h ∧ 2 ≤ left.w)
    (hl : WindowMirrored tr tc left left') (hr : WindowMirrored tr tc right right') :
    e.lstsq (gradMatrix left') (timeMatrix left' right') =
      (e.lstsq (gradMatrix left) (timeMatrix left right)).map (Prod.map (opposedF tc) (opposedF tr)) := by
  obtain ⟨⟨s1, s2⟩, vl⟩ := hl
  obtain ⟨-, vr⟩ := hr
  refine lucasKanade_moved (fun p => (turned tr left.h p.1, turned tc left.w p.2)) _ he (cells_perm _ (fun p hp q hq h => ?_) fun p => ?_)
    (fun p hp => ?_) (fun p hp => ?_)
  · obtain ⟨p1, p2⟩ := mem_cells hp
    obtain ⟨q1, q2⟩ := mem_cells hq
    have h1 := congrArg (turned tr left.h) (congrArg Prod.fst h)
    have h2 := congrArg (turned tc left.w) (congrArg Prod.snd h)
    simp only [(turned_turned p1).1, (turned_turned p2).1, (turned_turned q1).1, (turned_turned q2).1] at h1 h2
    exact Prod.ext h1 h2
  · simp only [cells_iff, s1, s2]
    constructor
    · rintro ⟨h1, h2⟩
      exact ⟨(turned tr left.h p.1, turned tc left.w p.2), ⟨(turned_turned h1).2, (turned_turned h2).2⟩,
        Prod.ext (turned_turned h1).1 (turned_turned h2).1⟩
    · rintro ⟨q, ⟨h1, h2⟩, rfl⟩
      exact ⟨(turned_turned h1).2, (turned_turned h2).2⟩
  · obtain ⟨h1, h2⟩ := mem_cells hp
    rw [s1, s2]
    refine Prod.ext ?_ ?_
    · exact gradient1_mirrored hs.2 tc (fun j hj => vl p.1 h1 j hj) h2
    · exact gradient1_mirrored (g := fun i => left.get i p.2) (g' := fun i => left'.get i (turned tc left.w p.2)) hs.1 tr
        (fun i hi => vl i hi p.2 h2) h1
  · obtain ⟨h1, h2⟩ := mem_cells hp
    refine ⟨?_, vl p.1 h1 p.2 h2⟩
    have := vr p.1 (by omega) p.2 (by omega)
    rw [hsr.1, hsr.2] at this
    exact this

theorem intPart_opposed {t : Bool} {x : K} {s : Int} (h : IntPart x s) : IntPart (opposed t x) (opposed t s) := by
  cases t
  · exact h
  · obtain ⟨h1, h2, h3⟩ := h
    refine ⟨?_, ?_, ?_⟩
    · simp only [opposed, if_true]; push_cast; rw [abs_neg, abs_neg]; exact h1
    · simp only [opposed, if_true]; push_cast; rw [abs_neg, abs_neg]; exact h2
    · simp only [opposed, if_true]; push_cast; rw [neg_mul_neg]; exact h3

theorem inside_opposed {invalid : F K} {t : Bool} {lo hi lo' hi' : Int}
    (h : ∀ z : Int, (lo ≤ z ∧ z ≤ hi) ↔ (lo' ≤ opposed t z ∧ opposed t z ≤ hi')) (hle : lo ≤ hi) (v : F K) :
    OpposedOr invalid t (insideOr invalid lo hi v) (insideOr invalid lo' hi' (opposedF t v)) := by
  have bounds : (t = false ∧ lo' = lo ∧ hi' = hi) ∨ (t = true ∧ lo' = -hi ∧ hi' = -lo) := by
    have h1 := (h lo).1 ⟨le_rfl, hle⟩
    have h2 := (h hi).1 ⟨hle, le_rfl⟩
    cases t
    · simp only [opposed, Bool.false_eq_true, if_false] at *
      have h3 := (h lo').2 ⟨le_rfl, by omega⟩
      have h4 := (h hi').2 ⟨by omega, le_rfl⟩
      exact .inl ⟨trivial, by omega, by omega⟩
    · simp only [opposed, if_true] at *
      have h3 := (h (-lo')).2 ⟨by omega, by omega⟩
      have h4 := (h (-hi')).2 ⟨by omega, by omega⟩
      exact .inr ⟨trivial, by omega, by omega⟩
  rcases bounds with ⟨rfl, rfl, rfl⟩ | ⟨rfl, rfl, rfl⟩
  · exact .inl rfl
  · have e : (F.le (opposedF true v) (.fin ((-hi : Int) : K)) ∨ F.le (.fin ((-lo : Int) : K)) (opposedF true v)) ↔
        (F.le v (.fin (lo : K)) ∨ F.le (.fin (hi : K)) v) := by
      cases v with
      | fin x =>
        simp only [opposedF, if_true, F.neg, F.le, decide_eq_true_eq]
        push_cast
        rw [neg_le_neg_iff, neg_le_neg_iff]
        exact or_comm
      | nan => simp [opposedF, F.neg, F.le]
      | pinf => simp [opposedF, F.neg, F.le]
      | ninf => simp [opposedF, F.neg, F.le]
    unfold insideOr
    by_cases q : F.le v (.fin (lo : K)) ∨ F.le (.fin (hi : K)) v
    · rw [if_pos q, if_pos (e.2 q)]
      exact .inr ⟨rfl, rfl⟩
    · rw [if_neg q, if_neg fun z => q (e.1 z)]
      exact .inl rfl

/-- The refined disparities in mirrored images, from opposed disparities. -/
theorem flowPixel_mirrored {tr tc : Bool} {e : Ext K} {half it : Nat} {left right left' right' : Img K} {r c r' c' lor hir loc hic lor' hir' loc' hic' : Int}
    {invalid row col row' col' : F K} {x y : K} (hhalf : 1 ≤ half) (hsz : KeepsSize e) (hres : ResamplesMirrored tr tc e)
    (he : SolvesThrough e (Prod.map (opposedF tc) (opposedF tr))) (hinv : ∀ v, invalid = .fin v → 1 < |v| ∧ |x| < |v| ∧ |y| < |v|)
    (ir : ∀ z : Int, (lor ≤ z ∧ z ≤ hir) ↔ (lor' ≤ opposed tr z ∧ opposed tr z ≤ hir')) (hr0 : lor ≤ hir)
    (ic : ∀ z : Int, (loc ≤ z ∧ z ≤ hic) ↔ (loc' ≤ opposed tc z ∧ opposed tc z ≤ hic')) (hc0 : loc ≤ hic)
    (hl : WindowMirrored tr tc (windowOf left half r c) (windowOf left' half r' c'))
    (hr : ∀ sr sc, WindowMirrored tr tc (rightWindow right half (r + sr) (c + sc)) (rightWindow right' half (r' + opposed tr sr) (c' + opposed tc sc)))
    (p : FlowPixel e half it left right r c lor hir loc hic invalid (.fin x) (.fin y) row col)
    (p' : FlowPixel e half it left' right' r' c' lor' hir' loc' hic' invalid (.fin (opposed tr x)) (.fin (opposed tc y)) row' col') :
    OpposedOr invalid tr row row' ∧ OpposedOr invalid tc col col' := by
  have shift : ∀ {t : Bool} {x : K} {s s' : Int}, (∀ v, invalid = .fin v → |x| < |v|) → StartShift invalid (.fin x) s →
      StartShift invalid (.fin (opposed t x)) s' → s' = opposed t s := by
    intro t x s s' hv h1 h2
    have ne : ∀ t : Bool, (F.fin (opposed t x) : F K) ≠ invalid := by
      intro t q
      have := hv _ q.symm
      cases t <;> simp [opposed] at this
    refine startShift_unique h2 (.inr ⟨_, rfl, ne t, intPart_opposed ?_⟩)
    rcases h1 with ⟨-, h1 | h1⟩ | ⟨x', hx', -, h1⟩
    · simp at h1
    · exact absurd h1 (ne false)
    · rw [F.fin.injEq] at hx'
      rw [hx']; exact h1
  obtain ⟨sr, sc, s1, s2, t, rfl, rfl, rfl⟩ := p
  obtain ⟨sr', sc', s1', s2', t', rfl, rfl, rfl⟩ := p'
  obtain rfl := shift (fun v hv => (hinv v hv).2.1) s1 s1'
  obtain rfl := shift (fun v hv => (hinv v hv).2.2) s2 s2'
  have key := trajectory_moved_or (flow := lucasKanade e invalid) (flow' := lucasKanade e invalid) (warp := e.warp) (warp' := e.warp)
    (left := windowOf left half r c) (left' := windowOf left' half r' c') (Prod.map (opposedF tr) (opposedF tc))
    (fun R R' => (R.h = 2 * half + 1 ∧ R.w = 2 * half + 1) ∧ WindowMirrored tr tc R R')
    (fun m => by simp only [Prod.map, fabs_opposed]) (fun d m => by simp only [Prod.map, fsub_opposed]) (fun m => by simp only [Prod.map, clip_opposed])
    (fun R R' h => ?_)
    (fun R R' m h => ⟨by rw [(hsz _ _ _).1, (hsz _ _ _).2]; exact h.1, hres _ _ _ _ h.2⟩) it _ _ (.fin x, .fin y)
    ⟨by unfold rightWindow; split_ifs <;> exact ⟨rfl, rfl⟩, hr sr sc⟩
  · rw [Prod.map_apply, opposedF_fin, opposedF_fin] at key
    rw [key]
    exact ⟨inside_opposed ir hr0 _, inside_opposed ic hc0 _⟩
  · have solve := lstsq_mirrored he h.1 ⟨by show 2 ≤ 2 * half + 1; omega, by show 2 ≤ 2 * half + 1; omega⟩ hl h.2
    unfold lucasKanade
    rw [solve]
    cases e.lstsq (gradMatrix (windowOf left half r c)) (timeMatrix (windowOf left half r c) R) with
    | some m => exact .inl rfl
    | none =>
      show (invalid, invalid) = Prod.map (opposedF tr) (opposedF tc) (invalid, invalid) ∨
        ((¬ (F.lt (fabs invalid) (.fin 1) ∧ F.lt (fabs invalid) (.fin 1))) ∧ (¬ (F.lt (fabs invalid) (.fin 1) ∧ F.lt (fabs invalid) (.fin 1))) ∧
          (clip invalid, clip invalid) = Prod.map (opposedF tr) (opposedF tc) (clip invalid, clip invalid))
      cases hi : invalid with
      | nan => left; cases tr <;> cases tc <;> rfl
      | fin v =>
        right
        have hv := (hinv v hi).1
        have c0 : clip (.fin v : F K) = .fin 0 := by simp [clip, fabs, F.lt, hv]
        have n1 : ¬ F.lt (fabs (.fin v : F K)) (.fin 1) := by simp [fabs, F.lt, hv.le]
        rw [c0]
        exact ⟨fun q => n1 q.1, fun q => n1 q.1, by cases tr <;> cases tc <;> simp [Prod.map, opposedF, F.neg]⟩
      | pinf =>
        right
        have c0 : clip (.pinf : F K) = .fin 0 := by simp [clip, fabs, F.lt]
        rw [c0]
        exact ⟨by simp [fabs, F.lt], by simp [fabs, F.lt], by cases tr <;> cases tc <;> simp [Prod.map, opposedF, F.neg]⟩
      | ninf =>
        right
        have c0 : clip (.ninf : F K) = .fin 0 := by simp [clip, fabs, F.lt]
        rw [c0]
        exact ⟨by simp [fabs, F.lt], by simp [fabs, F.lt], by cases tr <;> cases tc <;> simp [Prod.map, opposedF, F.neg]⟩

/-- A position displaced in a mirrored image. -/
theorem turned_inside {t : Bool} {n a half : Nat} (ha : a < n) (s : Int) :
    ((half : Int) ≤ (turned t n a : Nat) + opposed t s ∧ (turned t n a : Nat) + opposed t s + half < n) ↔ ((half : Int) ≤ a + s ∧ (a : Int) + s + half < n) := by
  cases t
  · rfl
  · simp only [turned, opposed, if_true]
    omega

theorem turned_at {t : Bool} {n a half i : Nat} (ha : a < n) (hi : i < 2 * half + 1) {s : Int} (h : (half : Int) ≤ a + s ∧ (a : Int) + s + half < n) :
    ((turned t n a : Nat) + opposed t s - half - 0 + (turned t (2 * half + 1) i : Nat)).toNat = turned t n ((a : Int) + s - half - 0 + i).toNat := by
  cases t
  · rfl
  · simp only [turned, opposed, if_true]
    omega

theorem window_turned {tr tc : Bool} {img img' : Img K} {half a b : Nat} {s u : Int}
    (h0 : (img.row0 = 0 ∧ img.col0 = 0) ∧ img'.row0 = 0 ∧ img'.col0 = 0) (m : Mirrored tr tc img img') (ha : a < img.h) (hb : b < img.w)
    (hx : (half : Int) ≤ a + s ∧ (a : Int) + s + half < img.h) (hy : (half : Int) ≤ b + u ∧ (b : Int) + u + half < img.w) :
    WindowMirrored tr tc (windowOf img half (a + s) (b + u))
      (windowOf img' half ((turned tr img.h a : Nat) + opposed tr s) ((turned tc img.w b : Nat) + opposed tc u)) := by
  obtain ⟨⟨o1, o2⟩, o3, o4⟩ := h0
  refine ⟨⟨rfl, rfl⟩, fun i hi j hj => ?_⟩
  have hi : i < 2 * half + 1 := hi
  have hj : j < 2 * half + 1 := hj
  show img'.im ((turned tr img.h a : Nat) + opposed tr s - half - img'.row0 + (turned tr (2 * half + 1) i : Nat)).toNat
      ((turned tc img.w b : Nat) + opposed tc u - half - img'.col0 + (turned tc (2 * half + 1) j : Nat)).toNat =
    img.im ((a : Int) + s - half - img.row0 + i).toNat ((b : Int) + u - half - img.col0 + j).toNat
  rw [o1, o2, o3, o4, turned_at ha hi hx, turned_at hb hj hy]
  exact m.values _ (by omega) _ (by omega)

theorem right_turned {tr tc : Bool} {img img' : Img K} {half a b : Nat} (s u : Int) (hs : img'.h = img.h ∧ img'.w = img.w)
    (h0 : (img.row0 = 0 ∧ img.col0 = 0) ∧ img'.row0 = 0 ∧ img'.col0 = 0) (m : Mirrored tr tc img img') (ha : a < img.h) (hb : b < img.w) :
    WindowMirrored tr tc (rightWindow img half (a + s) (b + u))
      (rightWindow img' half ((turned tr img.h a : Nat) + opposed tr s) ((turned tc img.w b : Nat) + opposed tc u)) := by
  have h0' := h0
  obtain ⟨⟨o1, o2⟩, o3, o4⟩ := h0
  have e : Spec.WindowFits img' half ((turned tr img.h a : Nat) + opposed tr s) ((turned tc img.w b : Nat) + opposed tc u) ↔
      Spec.WindowFits img half (a + s) (b + u) := by
    unfold Spec.WindowFits
    rw [o1, o2, o3, o4, hs.1, hs.2]
    have e1 := turned_inside (t := tr) (half := half) ha s
    have e2 := turned_inside (t := tc) (half := half) hb u
    simp only [zero_add]
    rw [← and_assoc, e1, e2, and_assoc]
  unfold rightWindow
  by_cases hf : Spec.WindowFits img half (a + s) (b + u)
  · rw [if_pos hf, if_pos (e.2 hf)]
    obtain ⟨f1, f2, f3, f4⟩ := hf
    rw [o1] at f1 f2
    rw [o2] at f3 f4
    exact window_turned h0' m ha hb (by omega) (by omega)
  · rw [if_neg hf, if_neg fun q => hf (e.1 q)]
    exact ⟨⟨rfl, rfl⟩, fun _ _ _ _ => rfl⟩

theorem innerPoint_turned {t : Bool} {H step half a : Nat} (ha : a < H) :
    InnerPoint 0 H step half ((turned t H a : Nat) : Int) ↔ InnerPoint 0 H step half (a : Int) := by
  cases t
  · rfl
  · unfold InnerPoint
    simp only [turned, if_true]
    have key : ∀ k : Nat, ((0 : Int) ≤ ((H - 1 - a : Nat) : Int) - (k : Int) * step ↔ (a : Int) + (k : Int) * step < 0 + H) ∧
        (((H - 1 - a : Nat) : Int) + (k : Int) * step < 0 + H ↔ (0 : Int) ≤ (a : Int) - (k : Int) * step) := by
      intro k
      generalize (k : Int) * step = v
      omega
    simp only [fun k => (key k).1, fun k => (key k).2]
    exact and_comm

theorem asked_mirrored {tr tc : Bool} {dRow dCol dRow' dCol' : Disp} {n : Nat} {H W a b : Nat}
    (ir : MirroredIntervals tr tc tr dRow dRow' H W) (ic : MirroredIntervals tr tc tc dCol dCol' H W) (ha : a < H) (hb : b < W) (x y : K) :
    AskedPair dRow dCol n (a : Int) (b : Int) x y ↔
      AskedPair dRow' dCol' n ((turned tr H a : Nat) : Int) ((turned tc W b : Nat) : Int) (opposed tr x) (opposed tc y) := by
  have int : ∀ (t : Bool) (d : K), (∃ a : Int, d * (n : K) = a) ↔ ∃ a : Int, opposed t d * (n : K) = a := by
    intro t d
    cases t
    · rfl
    · simp only [opposed, if_true, neg_mul]
      constructor
      · rintro ⟨a, ha⟩; exact ⟨-a, by push_cast; rw [ha]⟩
      · rintro ⟨a, ha⟩; exact ⟨-a, by push_cast; rw [← ha, neg_neg]⟩
  unfold AskedPair
  rw [interval_mirrored (K := K) (ir a ha b hb) x, interval_mirrored (K := K) (ic a ha b hb) y]
  refine and_congr_left' ⟨?_, ?_⟩
  · rintro ⟨u, v, h1, h2⟩
    obtain ⟨u', h1'⟩ := (int tr x).1 ⟨u, h1⟩
    obtain ⟨v', h2'⟩ := (int tc y).1 ⟨v, h2⟩
    exact ⟨u', v', h1', h2'⟩
  · rintro ⟨u, v, h1, h2⟩
    obtain ⟨u', h1'⟩ := (int tr x).2 ⟨u, h1⟩
    obtain ⟨v', h2'⟩ := (int tc y).2 ⟨v, h2⟩
    exact ⟨u', v', h1', h2'⟩

/-- C130: mirroring the images (upside down, left to right, or both) opposes the disparities refined by an optical flow. Two successful executions on
full images, without estimation, with the same steps, subpixel factor, window cost, whose measure does not depend on the order of the pixels in the
window, iterations and half window, and the same invalid value, which is not a number or is larger than one and than the disparities of the intervals;
the images of the second are those of the first mirrored, its intervals are opposed in the mirrored directions. The solver gives opposed unknowns for
opposed coefficients, whatever the order of the equations, and the resampling follows the mirror. At each pixel of the first which is, mirrored, a
pixel of the second: both scores are invalid, or the scores are equal and, when one pair of disparities only has this cost before the refinement, each
refined disparity of the second is the one of the first, opposed in the mirrored direction, or both are invalid. -/
theorem C130_mirrored_flow (tr tc : Bool) (w w' : World K) (user user' p p' mc mc' inp inp' l r l' r' f f' : Fields) (out out' : List (Written K))
    (H W : Nat) (dRow dCol dRow' dCol' : Disp) (sr sc : Nat) (invalid : F K) (n hw : Nat) (me : Measure) (ker : List (F K × F K) → F K) (it half : Nat)
    (wf : user.wf) (wf' : user'.wf)
    (hdisk : DiskContract w H W) (hpan : PandoraContract w) (hkeeps : PandoraKeeps w.pandora) (hoff : OffsetContract w)
    (hzoom : w.run.zoom = zoomLinear)
    (hdisk' : DiskContract w' H W) (hpan' : PandoraContract w') (hkeeps' : PandoraKeeps w'.pandora) (hoff' : OffsetContract w')
    (hzoom' : w'.run.zoom = zoomLinear)
    (cfg : Flowed w user p mc inp l r f H W dRow dCol sr sc invalid n hw me ker it half)
    (cfg' : Flowed w' user' p' mc' inp' l' r' f' H W dRow' dCol' sr sc invalid n hw me ker it half)
    (hext : w'.run.flow = w.run.flow) (hk : OrderFree ker) (hsz : KeepsSize w.run.flow) (hres : ResamplesMirrored tr tc w.run.flow)
    (hsolve : SolvesThrough w.run.flow (Prod.map (opposedF tc) (opposedF tr)))
    (apr : ApartFrom invalid dRow H W) (apc : ApartFrom invalid dCol H W)
    (himg : ∀ left right left' right', ImagesRead w l r none left right → ImagesRead w' l' r' none left' right' →
      Mirrored tr tc left left' ∧ Mirrored tr tc right right')
    (ir : MirroredIntervals tr tc tr dRow dRow' H W) (ic : MirroredIntervals tr tc tc dCol dCol' H W)
    (h : Main.main w user = (out, none)) (h' : Main.main w' user' = (out', none)) :
    ∃ files rest files' rest' left right, ∃ displaced : K → Img K, out = .rasters files :: rest ∧ out' = .rasters files' :: rest' ∧
      ImagesRead w l r none left right ∧
      (∀ dr : K, (∃ a : Int, dr * (n : K) = (a : K)) → Displaced (displaced dr) right dr) ∧
      (∀ f ∈ [files.row, files.col, files.score], (∀ i, i < f.h ↔ i * sr < H) ∧ ∀ j, j < f.w ↔ j * sc < W) ∧
      (∀ f ∈ [files'.row, files'.col, files'.score], (∀ i, i < f.h ↔ i * sr < H) ∧ ∀ j, j < f.w ↔ j * sc < W) ∧
      ∀ i j i' j' : Nat, i < files.row.h → j < files.row.w → i' < files'.row.h → j' < files'.row.w →
        i' * sr = turned tr H (i * sr) → j' * sc = turned tc W (j * sc) →
        (files.score.values i j = invalid ∧ files'.score.values i' j' = invalid) ∨
        files.score.values i j = files'.score.values i' j' ∧ files.score.values i j ≠ .nan ∧ ∃ gmin gmax : Arr2 Int,
          (∀ y : K, ((initAt dCol ((i * sr : Nat) : Int) ((j * sc : Nat) : Int) - dCol.range : Int) : K) ≤ y →
            y ≤ ((initAt dCol ((i * sr : Nat) : Int) ((j * sc : Nat) : Int) + dCol.range : Int) : K) →
            ((gmin.get (i * sr) (j * sc) : Int) : K) ≤ y ∧ y ≤ ((gmax.get (i * sr) (j * sc) : Int) : K)) ∧
          ∀ x y : K, (∀ x' y' : K, AskedPair dRow dCol n ((i * sr : Nat) : Int) ((j * sc : Nat) : Int) x' y' ∧
              Pandora.windowCost hw ker left (displaced x') gmin gmax (i * sr) (j * sc) y' = files.score.values i j ↔ x' = x ∧ y' = y) →
            OpposedOr invalid tr (files.row.values i j) (files'.row.values i' j') ∧
              OpposedOr invalid tc (files.col.values i j) (files'.col.values i' j') := by
  obtain ⟨⟨hn, hh⟩, files, rest, left, right, o, im, ⟨⟨s1, s2⟩, s3, s4⟩, ⟨z1, z2⟩, z, key⟩ := flow_rasters cfg wf hdisk hpan hkeeps hoff h
  obtain ⟨-, files', rest', left', right', o', im', ⟨⟨s1', s2'⟩, s3', s4'⟩, ⟨z1', z2'⟩, z', key'⟩ :=
    flow_rasters cfg' wf' hdisk' hpan' hkeeps' hoff' h'
  obtain ⟨tl, tr'⟩ := himg _ _ _ _ im im'
  refine ⟨files, rest, files', rest', left, right, fun x => slabImg zoomLinear right n x, o, o', im,
    fun dr q => slab_displaced right n hn dr q, z, z', fun i j i' j' hi hj hi' hj' e1 e2 => ?_⟩
  have bi : i * sr < H := ((z _ List.mem_cons_self).1 i).1 hi
  have bj : j * sc < W := ((z _ List.mem_cons_self).2 j).1 hj
  obtain ⟨gmin, gmax, g, r0, c0, b1, p1, q1⟩ := key i hi j hj
  obtain ⟨gmin', gmax', g', r1, c1, b2, p2, q2⟩ := key' i' hi' j' hj'
  rw [e1, e2] at b2 p2 q2 g'
  rw [hzoom] at b1
  rw [hzoom'] at b2
  rw [hext] at p2
  generalize i * sr = a at *
  generalize j * sc = b at *
  have costs : ∀ x y, AskedPair dRow dCol n a b x y →
      Pandora.windowCost hw ker left' (slabImg zoomLinear right' n (opposed tr x)) gmin' gmax' (turned tr H a) (turned tc W b) (opposed tc y) =
      Pandora.windowCost hw ker left (slabImg zoomLinear right n x) gmin gmax a b y := by
    intro x y q
    have q' := (asked_mirrored ir ic bi bj x y).1 q
    obtain ⟨⟨u, -, hx, -⟩, -, q3, q4⟩ := q
    obtain ⟨⟨u', -, hx', -⟩, -, q3', q4'⟩ := q'
    have A := slab_displaced right n hn x ⟨u, hx⟩
    have A' := slab_displaced right' n hn (opposed tr x) ⟨u', hx'⟩
    exact window_mirrored hk tl (displaced_mirrored A A' ⟨by omega, by omega⟩ tr')
      ⟨⟨s1, s2⟩, A.size.1.trans s3, A.size.2.trans s4⟩ ⟨⟨s1', s2'⟩, A'.size.1.trans s3', A'.size.2.trans s4'⟩ A.valid A'.valid bi bj
      (g y q3 q4) (g' _ q3' q4')
  rcases best_moved (opposed tr) (opposed tc) (opposed_twice tr) (opposed_twice tc) (asked_mirrored ir ic bi bj) costs b1 b2 with q | ⟨t1, t2, t3⟩
  · exact .inl ⟨q.2.2.1, q.2.2.2.2.2⟩
  right
  refine ⟨t1, t2, gmin, gmax, g, fun x y only => ?_⟩
  obtain ⟨rfl, rfl, rfl, rfl⟩ := t3 x y only
  obtain ⟨⟨-, ⟨a1, a2⟩, a3, a4⟩, -⟩ := (only x y).2 ⟨rfl, rfl⟩
  have hr0 := Int.cast_le.1 (a1.trans a2)
  have hc0 := Int.cast_le.1 (a3.trans a4)
  by_cases inn : InnerPoint 0 H sr half (a : Int) ∧ InnerPoint 0 W sc half (b : Int)
  · have f1 := innerPoint_fits inn.1
    have f2 := innerPoint_fits inn.2
    have wl := window_turned (half := half) (a := a) (b := b) (s := 0) (u := 0) ⟨z1, z1'⟩ tl (by omega) (by omega) (by omega) (by omega)
    rw [s1, s2] at wl
    have zero : ∀ t : Bool, opposed t (0 : Int) = 0 := fun t => by cases t <;> simp [opposed]
    simp only [zero, add_zero] at wl
    refine flowPixel_mirrored hh hsz hres hsolve (fun v hv => ⟨(apr v hv).1, (apr v hv).2 a bi b bj x a1 a2, (apc v hv).2 a bi b bj y a3 a4⟩)
      (ir a bi b bj) hr0 (ic a bi b bj) hc0 wl (fun s u => ?_) (p1 inn) (p2 ⟨(innerPoint_turned bi).2 inn.1, (innerPoint_turned bj).2 inn.2⟩)
    have := right_turned (half := half) (a := a) (b := b) s u ⟨by omega, by omega⟩ ⟨z2, z2'⟩ tr' (by omega) (by omega)
    rw [s3, s4] at this
    exact this
  · obtain ⟨y1, y2⟩ := q1 inn
    obtain ⟨y3, y4⟩ := q2 fun q => inn ⟨(innerPoint_turned bi).1 q.1, (innerPoint_turned bj).1 q.2⟩
    exact ⟨.inr ⟨y1, y3⟩, .inr ⟨y2, y4⟩⟩

/-! ### Two frames of a scene -/

theorem window_scene_flow {half : Nat} {left right left' right' : Img K} {a b a' b' : Nat} {lr hr lc hc : Int}
    (sc : SameFlowScene half left right left' right' a b a' b' lr hr lc hc)
    (h0 : (left.row0 = 0 ∧ left.col0 = 0) ∧ left'.row0 = 0 ∧ left'.col0 = 0) (ha : half ≤ a ∧ half ≤ b) (ha' : half ≤ a' ∧ half ≤ b') :
    WindowSeen id (windowOf left half a b) (windowOf left' half a' b') := by
  obtain ⟨⟨o1, o2⟩, o3, o4⟩ := h0
  refine ⟨⟨rfl, rfl⟩, fun i hi j hj => ?_⟩
  have hi : i < 2 * half + 1 := hi
  have hj : j < 2 * half + 1 := hj
  show left'.im ((a' : Int) - half - left'.row0 + i).toNat ((b' : Int) - half - left'.col0 + j).toNat =
    left.im ((a : Int) - half - left.row0 + i).toNat ((b : Int) - half - left.col0 + j).toNat
  rw [o1, o2, o3, o4, show ((a' : Int) - half - 0 + i).toNat = a' + i - half by omega, show ((b' : Int) - half - 0 + j).toNat = b' + j - half by omega,
    show ((a : Int) - half - 0 + i).toNat = a + i - half by omega, show ((b : Int) - half - 0 + j).toNat = b + j - half by omega]
  exact sc.window i hi j hj

theorem right_scene_flow {half : Nat} {left right left' right' : Img K} {a b a' b' : Nat} {lr hr lc hc : Int}
    (sc : SameFlowScene half left right left' right' a b a' b' lr hr lc hc)
    (h0 : (right.row0 = 0 ∧ right.col0 = 0) ∧ right'.row0 = 0 ∧ right'.col0 = 0) {s u : Int} (hs : lr ≤ s ∧ s ≤ hr) (hu : lc ≤ u ∧ u ≤ hc) :
    WindowSeen id (rightWindow right half (a + s) (b + u)) (rightWindow right' half (a' + s) (b' + u)) := by
  obtain ⟨⟨o1, o2⟩, o3, o4⟩ := h0
  have r1 := sc.rows (s - half) (by omega) (by omega)
  have r2 := sc.rows (s + half) (by omega) (by omega)
  have c1 := sc.cols (u - half) (by omega) (by omega)
  have c2 := sc.cols (u + half) (by omega) (by omega)
  have e : Spec.WindowFits right' half (a' + s) (b' + u) ↔ Spec.WindowFits right half (a + s) (b + u) := by
    unfold Spec.WindowFits
    rw [o1, o2, o3, o4]
    omega
  unfold rightWindow
  by_cases hf : Spec.WindowFits right half (a + s) (b + u)
  · rw [if_pos hf, if_pos (e.2 hf)]
    obtain ⟨f1, f2, f3, f4⟩ := hf
    rw [o1] at f1 f2
    rw [o2] at f3 f4
    refine ⟨⟨rfl, rfl⟩, fun i hi j hj => ?_⟩
    have hi : i < 2 * half + 1 := hi
    have hj : j < 2 * half + 1 := hj
    have v := sc.values (s - half + i) (u - half + j) (by omega) (by omega) (by omega) (by omega) (by omega) (by omega) (by omega) (by omega)
    show right'.im ((a' : Int) + s - half - right'.row0 + i).toNat ((b' : Int) + u - half - right'.col0 + j).toNat =
      right.im ((a : Int) + s - half - right.row0 + i).toNat ((b : Int) + u - half - right.col0 + j).toNat
    rw [o1, o2, o3, o4]
    have t1 : ∀ k : Int, k + s - half - 0 + i = k + (s - half + i) := fun k => by ring
    have t2 : ∀ k : Int, k + u - half - 0 + j = k + (u - half + j) := fun k => by ring
    rw [t1, t1, t2, t2]
    exact v
  · rw [if_neg hf, if_neg fun q => hf (e.1 q)]
    exact ⟨⟨rfl, rfl⟩, fun _ _ _ _ => rfl⟩

/-- C131: two images of the same scene, with different frames, give the same refined disparities where they overlap. Two successful executions on full
images, possibly of different sizes and steps, without estimation, with the same subpixel factor, window cost, invalid value, iterations and half
window, with a resampling which only depends on the values of the window. At a pixel of the first and a pixel of the second which have the same
intervals, see the same scene with the windows of the cost and with the windows of the flow (displaced by the intervals or not at all) and are both
away from the border of their frame or both too close to it, the three values are the same. -/
theorem C131_overlap_flow (w w' : World K) (user user' p p' mc mc' inp inp' l r l' r' f f' : Fields) (out out' : List (Written K))
    (H W H' W' : Nat) (dRow dCol dRow' dCol' : Disp) (sr sc sr' sc' : Nat) (invalid : F K) (n hw : Nat) (me : Measure)
    (ker : List (F K × F K) → F K) (it half : Nat) (wf : user.wf) (wf' : user'.wf)
    (hdisk : DiskContract w H W) (hpan : PandoraContract w) (hkeeps : PandoraKeeps w.pandora) (hoff : OffsetContract w)
    (hzoom : w.run.zoom = zoomLinear)
    (hdisk' : DiskContract w' H' W') (hpan' : PandoraContract w') (hkeeps' : PandoraKeeps w'.pandora) (hoff' : OffsetContract w')
    (hzoom' : w'.run.zoom = zoomLinear)
    (cfg : Flowed w user p mc inp l r f H W dRow dCol sr sc invalid n hw me ker it half)
    (cfg' : Flowed w' user' p' mc' inp' l' r' f' H' W' dRow' dCol' sr' sc' invalid n hw me ker it half)
    (hext : w'.run.flow = w.run.flow) (hsz : KeepsSize w.run.flow) (hres : ResamplesThrough w.run.flow id)
    (h : Main.main w user = (out, none)) (h' : Main.main w' user' = (out', none)) :
    ∃ files rest files' rest' left right left' right', out = .rasters files :: rest ∧ out' = .rasters files' :: rest' ∧
      ImagesRead w l r none left right ∧ ImagesRead w' l' r' none left' right' ∧
      (∀ f ∈ [files.row, files.col, files.score], (∀ i, i < f.h ↔ i * sr < H) ∧ ∀ j, j < f.w ↔ j * sc < W) ∧
      (∀ f ∈ [files'.row, files'.col, files'.score], (∀ i, i < f.h ↔ i * sr' < H') ∧ ∀ j, j < f.w ↔ j * sc' < W') ∧
      ∀ i j i' j' a b a' b' : Nat, i < files.row.h → j < files.row.w → i' < files'.row.h → j' < files'.row.w →
        a = i * sr → b = j * sc → a' = i' * sr' → b' = j' * sc' →
        SameIntervalMoved dRow dRow' a b a' b' → SameIntervalMoved dCol dCol' a b a' b' →
        SameScene hw left right left' right' a b a' b' (initAt dRow a b - dRow.range) (initAt dRow a b + dRow.range)
          (initAt dCol a b - dCol.range) (initAt dCol a b + dCol.range) →
        SameFlowScene half left right left' right' a b a' b' (min (initAt dRow a b - dRow.range) 0) (max (initAt dRow a b + dRow.range) 0)
          (min (initAt dCol a b - dCol.range) 0) (max (initAt dCol a b + dCol.range) 0) →
        ((InnerPoint 0 H sr half a ∧ InnerPoint 0 W sc half b) ↔ (InnerPoint 0 H' sr' half a' ∧ InnerPoint 0 W' sc' half b')) →
        files'.row.values i' j' = files.row.values i j ∧ files'.col.values i' j' = files.col.values i j ∧
          files'.score.values i' j' = files.score.values i j := by
  obtain ⟨⟨hn, hh⟩, files, rest, left, right, o, im, ⟨⟨s1, s2⟩, s3, s4⟩, ⟨z1, z2⟩, z, key⟩ := flow_rasters cfg wf hdisk hpan hkeeps hoff h
  obtain ⟨-, files', rest', left', right', o', im', ⟨⟨s1', s2'⟩, s3', s4'⟩, ⟨z1', z2'⟩, z', key'⟩ :=
    flow_rasters cfg' wf' hdisk' hpan' hkeeps' hoff' h'
  refine ⟨files, rest, files', rest', left, right, left', right', o, o', im, im', z, z',
    fun i j i' j' a b a' b' hi hj hi' hj' ea eb ea' eb' ⟨r1, r2⟩ ⟨c1, c2⟩ scene sceneF hinn => ?_⟩
  have bi : i * sr < H := ((z _ List.mem_cons_self).1 i).1 hi
  have bj : j * sc < W := ((z _ List.mem_cons_self).2 j).1 hj
  have bi' : i' * sr' < H' := ((z' _ List.mem_cons_self).1 i').1 hi'
  have bj' : j' * sc' < W' := ((z' _ List.mem_cons_self).2 j').1 hj'
  obtain ⟨gmin, gmax, g, r0, c0, b1, p1, q1⟩ := key i hi j hj
  obtain ⟨gmin', gmax', g', r3, c3, b2, p2, q2⟩ := key' i' hi' j' hj'
  rw [hzoom] at b1
  rw [hzoom'] at b2
  rw [hext] at p2
  rw [← ea, ← eb] at b1 p1 q1 g
  rw [← ea', ← eb'] at b2 p2 q2 g'
  rw [← ea] at bi
  rw [← eb] at bj
  rw [← ea'] at bi'
  rw [← eb'] at bj'
  rw [← c1, ← c2] at g'
  rw [← r1, ← r2, ← c1, ← c2] at p2
  have hask : ∀ x y : K, AskedPair dRow' dCol' n a' b' x y ↔ AskedPair dRow dCol n a b x y := fun x y => by
    unfold AskedPair; rw [r1, r2, c1, c2]
  have costs : ∀ x y, AskedPair dRow dCol n a b x y → Pandora.windowCost hw ker left' (slabImg zoomLinear right' n x) gmin' gmax' a' b' y =
      Pandora.windowCost hw ker left (slabImg zoomLinear right n x) gmin gmax a b y := by
    rintro x y ⟨⟨u, -, hx, -⟩, ⟨q1, q2⟩, q3, q4⟩
    exact window_scene scene (slab_displaced right n hn x ⟨u, hx⟩) (slab_displaced right' n hn x ⟨u, hx⟩) q1 q2 q3 q4 (by omega) (by omega)
      (g y q3 q4) (g' y q3 q4)
  obtain ⟨rfl, rfl, hsc⟩ := BestPair.unique (best_congr costs (best_asked hask b2)) b1
  by_cases inn : InnerPoint 0 H sr half (a : Int) ∧ InnerPoint 0 W sc half (b : Int)
  · have inn' := hinn.1 inn
    have f1 := innerPoint_fits inn.1
    have f2 := innerPoint_fits inn.2
    have f1' := innerPoint_fits inn'.1
    have f2' := innerPoint_fits inn'.2
    obtain ⟨d1, d2⟩ := flowPixel_seen hh hsz hres (fun a b a' b' v1 v2 v3 v4 => lucasKanade_local v1 v2 v3 v4)
      (window_scene_flow sceneF ⟨z1, z1'⟩ (by omega) (by omega))
      (fun s t h1 h2 => by
        obtain ⟨t1, t2⟩ := startShift_in b1 h1 h2
        exact right_scene_flow sceneF ⟨z2, z2'⟩ t1 t2) (p1 inn) (p2 inn')
    exact ⟨d1, d2, hsc⟩
  · obtain ⟨y1, y2⟩ := q1 inn
    obtain ⟨y3, y4⟩ := q2 fun q => inn (hinn.2 q)
    exact ⟨y3.trans y1.symm, y4.trans y2.symm, hsc⟩

/-! ## Examples -/

theorem dotOf_perm {l l' : List (ℚ × ℚ)} (h : l.Perm l') : dotOf l = dotOf l' := (h.map _).sum_eq

theorem normalSolution_perm {l l' : List ((ℚ × ℚ) × ℚ)} (h : l.Perm l') : normalSolution l = normalSolution l' := by
  unfold normalSolution
  simp only [dotOf_perm (h.map _)]

theorem normalSolution_exchanged (l : List ((ℚ × ℚ) × ℚ)) : normalSolution (l.map fun p => (p.1.swap, p.2)) = (normalSolution l).map Prod.swap := by
  have comm : dotOf (l.map fun p => (p.1.2, p.1.1)) = dotOf (l.map fun p => (p.1.1, p.1.2)) := by
    unfold dotOf
    rw [List.map_map, List.map_map]
    congr 1
    exact List.map_congr_left fun p _ => mul_comm _ _
  unfold normalSolution
  simp only [List.map_map, Function.comp_def, Prod.fst_swap, Prod.snd_swap, comm]
  generalize dotOf (l.map fun p => (p.1.1, p.1.1)) = xx
  generalize dotOf (l.map fun p => (p.1.1, p.1.2)) = xy
  generalize dotOf (l.map fun p => (p.1.2, p.1.2)) = yy
  generalize dotOf (l.map fun p => (p.1.1, p.2)) = xt
  generalize dotOf (l.map fun p => (p.1.2, p.2)) = yt
  rw [mul_comm yy xx]
  split_ifs <;> simp

theorem dotOf_signs (a b : ℚ) (l : List (ℚ × ℚ)) : dotOf (l.map fun p => (a * p.1, b * p.2)) = a * b * dotOf l := by
  unfold dotOf
  rw [List.map_map, ← List.sum_map_mul_left]
  congr 1
  refine List.map_congr_left fun p _ => ?_
  simp only [Function.comp]
  ring

theorem normalSolution_signs {a b : ℚ} (ha : a = 1 ∨ a = -1) (hb : b = 1 ∨ b = -1) (l : List ((ℚ × ℚ) × ℚ)) :
    normalSolution (l.map fun p => ((a * p.1.1, b * p.1.2), p.2)) =
      (normalSolution l).map (Prod.map (F.mul (.fin a)) (F.mul (.fin b))) := by
  have aa : a * a = 1 := by rcases ha with rfl | rfl <;> norm_num
  have bb : b * b = 1 := by rcases hb with rfl | rfl <;> norm_num
  have e1 := dotOf_signs a a (l.map fun p => (p.1.1, p.1.1))
  have e2 := dotOf_signs a b (l.map fun p => (p.1.1, p.1.2))
  have e3 := dotOf_signs b b (l.map fun p => (p.1.2, p.1.2))
  have e4 := dotOf_signs a 1 (l.map fun p => (p.1.1, p.2))
  have e5 := dotOf_signs b 1 (l.map fun p => (p.1.2, p.2))
  simp only [List.map_map, Function.comp_def, one_mul, mul_one] at e1 e2 e3 e4 e5
  unfold normalSolution
  simp only [List.map_map, Function.comp_def, e1, e2, e3, e4, e5, aa, bb, one_mul]
  generalize dotOf (l.map fun p => (p.1.1, p.1.1)) = xx
  generalize dotOf (l.map fun p => (p.1.1, p.1.2)) = xy
  generalize dotOf (l.map fun p => (p.1.2, p.1.2)) = yy
  generalize dotOf (l.map fun p => (p.1.1, p.2)) = xt
  generalize dotOf (l.map fun p => (p.1.2, p.2)) = yt
  have d : a * b * xy * (a * b * xy) = xy * xy := by
    calc a * b * xy * (a * b * xy) = (a * a) * (b * b) * (xy * xy) := by ring
      _ = xy * xy := by rw [aa, bb]; ring
  have n1 : yy * (a * xt) - a * b * xy * (b * yt) = a * (yy * xt - xy * yt) := by
    calc yy * (a * xt) - a * b * xy * (b * yt) = a * (yy * xt) - a * ((b * b) * (xy * yt)) := by ring
      _ = a * (yy * xt - xy * yt) := by rw [bb]; ring
  have n2 : xx * (b * yt) - a * b * xy * (a * xt) = b * (xx * yt - xy * xt) := by
    calc xx * (b * yt) - a * b * xy * (a * xt) = b * (xx * yt) - b * ((a * a) * (xy * xt)) := by ring
      _ = b * (xx * yt - xy * xt) := by rw [aa]; ring
  rw [d, n1, n2]
  split_ifs
  · rfl
  · simp only [Option.map_some, Prod.map_apply, F.mul, mul_div_assoc]

theorem eqsOf_zip {A A' : List (F ℚ × F ℚ)} {B B' : List (F ℚ)} {τ : F ℚ × F ℚ → F ℚ × F ℚ} {σ : ℚ × ℚ → ℚ × ℚ}
    (hτ : ∀ p, (amount (τ p).1, amount (τ p).2) = σ (amount p.1, amount p.2)) (h : (A'.zip B').Perm ((A.zip B).map (Prod.map τ id))) :
    (eqsOf A' B').Perm ((eqsOf A B).map fun p => (σ p.1, p.2)) := by
  unfold eqsOf
  refine (h.map _).trans (List.Perm.of_eq ?_)
  rw [List.map_map, List.map_map]
  refine List.map_congr_left fun p _ => ?_
  simp only [Function.comp, Prod.map, id, hτ]

theorem exExt_exchanged : SolvesThrough exExt Prod.swap := by
  intro A B A' B' _ _ h
  show normalSolution _ = (normalSolution _).map _
  rw [normalSolution_perm (eqsOf_zip (σ := Prod.swap) (fun _ => rfl) h), normalSolution_exchanged]

theorem exExt_mirrored (tr tc : Bool) : SolvesThrough exExt (Prod.map (opposedF tc) (opposedF tr)) := by
  intro A B A' B' _ _ h
  have sign : ∀ t : Bool, (opposed t (1 : ℚ) = 1 ∨ opposed t (1 : ℚ) = -1) ∧ (∀ v : F ℚ, amount (opposedF t v) = opposed t (1 : ℚ) * amount v) ∧
      ∀ v : ℚ, F.mul (.fin (opposed t (1 : ℚ))) (.fin v) = opposedF t (.fin v) := by
    intro t
    cases t
    · exact ⟨.inl rfl, fun v => by simp [opposed, opposedF], fun v => by simp [opposed, opposedF, F.mul]⟩
    · refine ⟨.inr rfl, fun v => ?_, fun v => by simp [opposed, opposedF, F.mul, F.neg]⟩
      cases v <;> simp [opposed, opposedF, F.neg, amount]
  show normalSolution _ = (normalSolution _).map _
  rw [normalSolution_perm (eqsOf_zip (σ := fun p => (opposed tc (1 : ℚ) * p.1, opposed tr (1 : ℚ) * p.2))
    (fun p => Prod.ext ((sign tc).2.1 _) ((sign tr).2.1 _)) h), normalSolution_signs (sign tc).1 (sign tr).1]
  unfold normalSolution
  dsimp only
  split_ifs
  · rfl
  · simp only [Option.map_some, Prod.map_apply, (sign tc).2.2, (sign tr).2.2]

/-- Whatever the two images, and their transposes. -/
example (fl fr : Nat → Nat → F ℚ) : ∃ files rest files' rest',
    Main.main (exWorldG fl fr) exUserG = (.rasters files :: rest, none) ∧
    Main.main (exWorldG (fun x y => fl y x) (fun x y => fr y x)) exUserG = (.rasters files' :: rest', none) ∧
    ∀ i < 3, ∀ j < 3, files'.col.values j i = files.row.values i j ∧ files'.row.values j i = files.col.values i j := by
  obtain ⟨p, mc, inp, f, cfg⟩ := exWorldG_flowed fl fr
  obtain ⟨p', mc', inp', f', cfg'⟩ := exWorldG_flowed (fun x y => fl y x) (fun x y => fr y x)
  have r := exWorldG_runs fl fr
  have r' := exWorldG_runs (fun x y => fl y x) (fun x y => fr y x)
  have ct := exWorldG_contract fl fr
  have ct' := exWorldG_contract (fun x y => fl y x) (fun x y => fr y x)
  have tran : ∀ f : Nat → Nat → F ℚ, Transposed (exImgT f) (exImgT fun x y => f y x) := fun f =>
    ⟨rfl, fun _ _ _ _ => rfl, fun _ _ _ _ => rfl, fun _ _ _ _ => rfl⟩
  obtain ⟨files, rest, files', rest', o, o', z, z', key⟩ := C129_transposed_flow _ _ _ _ _ _ _ _ _ _ _ _ _ _ _ _ _ _ 3 3
    _ _ _ _ 1 1 _ 1 .min sad 1 1
    exUserG_wf exUserG_wf ct.disk ct.pandora ct.keeps ct.offset ct'.disk ct'.pandora ct'.keeps ct'.offset
    cfg cfg' rfl (sumOf_orderFree _) (fun _ _ _ => ⟨rfl, rfl⟩) (fun _ _ _ _ h => h) exExt_exchanged
    (fun left right left' right' h h' => by
      obtain ⟨rfl, rfl⟩ := exWorldG_images _ _ _ _ h
      obtain ⟨rfl, rfl⟩ := exWorldG_images _ _ _ _ h'
      exact ⟨tran fl, tran fr⟩)
    (fun left right h => by
      obtain ⟨rfl, rfl⟩ := exWorldG_images _ _ _ _ h
      simp [exImgT, exLeftImg])
    (fun _ _ _ _ => ⟨rfl, rfl⟩) (fun _ _ _ _ => ⟨rfl, rfl⟩) r r'
  have b := z _ List.mem_cons_self
  refine ⟨files, rest, files', rest', by rw [r]; exact congrArg (·, none) o, by rw [r']; exact congrArg (·, none) o', fun i hi j hj => ?_⟩
  obtain ⟨k1, k2, -⟩ := key i ((b.1 i).2 (by omega)) j ((b.2 j).2 (by omega))
  exact ⟨k1, k2⟩

/-- Whatever the two images, turned by half a turn. -/
example (fl fr : Nat → Nat → F ℚ) : ∃ files rest files' rest',
    Main.main (exWorldG fl fr) exUserG = (.rasters files :: rest, none) ∧
    Main.main (exWorldG (fun x y => fl (2 - x) (2 - y)) (fun x y => fr (2 - x) (2 - y))) exUserG = (.rasters files' :: rest', none) ∧
    ∀ i < 3, ∀ j < 3, files.score.values i j = files'.score.values (2 - i) (2 - j) := by
  obtain ⟨p, mc, inp, f, cfg⟩ := exWorldG_flowed fl fr
  obtain ⟨p', mc', inp', f', cfg'⟩ := exWorldG_flowed (fun x y => fl (2 - x) (2 - y)) (fun x y => fr (2 - x) (2 - y))
  have r := exWorldG_runs fl fr
  have r' := exWorldG_runs (fun x y => fl (2 - x) (2 - y)) (fun x y => fr (2 - x) (2 - y))
  have ct := exWorldG_contract fl fr
  have ct' := exWorldG_contract (fun x y => fl (2 - x) (2 - y)) (fun x y => fr (2 - x) (2 - y))
  have mir : ∀ f : Nat → Nat → F ℚ, Mirrored true true (exImgT f) (exImgT fun x y => f (2 - x) (2 - y)) := fun f => by
    have e : ∀ x < 3, 2 - turned true 3 x = x := fun x hx => by simp only [turned, if_true]; omega
    refine ⟨rfl, fun x hx y hy => ?_, fun _ _ _ _ => rfl, fun _ _ _ _ => rfl⟩
    show f (2 - turned true 3 x) (2 - turned true 3 y) = f x y
    rw [e x hx, e y hy]
  have int : MirroredIntervals true true true ⟨.const 0, 1⟩ ⟨.const 0, 1⟩ 3 3 := by
    intro x _ y _ z
    simp only [initAt, opposed, if_true]
    omega
  obtain ⟨files, rest, files', rest', left, right, displaced, o, o', im, -, z, z', key⟩ := C130_mirrored_flow true true _ _ _ _ _ _ _ _ _ _ _ _ _ _ _ _ _ _
    3 3 _ _ _ _ 1 1 _ 1 1 .min sad 1 1
    exUserG_wf exUserG_wf ct.disk ct.pandora ct.keeps ct.offset rfl ct'.disk ct'.pandora ct'.keeps ct'.offset rfl
    cfg cfg' rfl (sumOf_orderFree _) (fun _ _ _ => ⟨rfl, rfl⟩) (fun _ _ _ _ h => h) (exExt_mirrored true true)
    (fun v hv => by simp at hv) (fun v hv => by simp at hv)
    (fun left right left' right' h h' => by
      obtain ⟨rfl, rfl⟩ := exWorldG_images _ _ _ _ h
      obtain ⟨rfl, rfl⟩ := exWorldG_images _ _ _ _ h'
      exact ⟨mir fl, mir fr⟩) int int r r'
  have b := z _ List.mem_cons_self
  have b' := z' _ List.mem_cons_self
  refine ⟨files, rest, files', rest', by rw [r]; exact congrArg (·, none) o, by rw [r']; exact congrArg (·, none) o', fun i hi j hj => ?_⟩
  rcases key i j (2 - i) (2 - j) ((b.1 i).2 (by omega)) ((b.2 j).2 (by omega)) ((b'.1 _).2 (by omega)) ((b'.2 _).2 (by omega))
    (by simp only [turned, if_true]; omega) (by simp only [turned, if_true]; omega) with q | q
  · rw [q.1, q.2]
  · exact q.1

/-- Windows of three pixels compared by `sad`, on images of `rows` rows and three columns given by their values. -/
noncomputable def exWorldGr (rows : Nat) (fl fr : Nat → Nat → F ℚ) : World ℚ :=
  { exWorldOf 1 rows with
    cost := fun _ => Pandora.windowCost 1 sad
    files := { (exWorldOf 1 rows).files with read := fun s roi =>
      let img := if isLeftSection s then exImgRows rows fl else exImgRows rows fr
      match roi with
      | none => .ok img
      | some R => .ok (cropImg img R) }
    run := { (exWorldOf 1 rows).run with flow := exExt } }

theorem exWorldGr_contract (rows : Nat) (h0 : 1 ≤ rows) (fl fr : Nat → Nat → F ℚ) : RunContract (exWorldGr rows fl fr) rows 3 := by
  obtain ⟨⟨d1, d2, d3, d4, d5⟩, ⟨p1, -⟩, k, r, a, o, i, s⟩ := exWorldOf_contract 1 rows h0
  refine ⟨⟨d1, d2, d3, ?_, ?_⟩, ⟨p1, fun _ => windowCost_contract 1 sad sad_finite⟩, k, ?_, fun _ _ _ _ => rfl, o, i, s⟩
  · intro v img h
    simp only [exWorldGr, Except.ok.injEq] at h
    subst h
    split_ifs <;> exact ⟨rfl, rfl, rfl, rfl⟩
  · intro v R img h h1 h2 h3
    simp only [exWorldGr, Except.ok.injEq] at h
    subst h
    have key : ∀ i : Img ℚ, i.h = rows → i.w = 3 → CropOk (cropImg i R) R rows 3 := by
      intro i hi hi'
      refine ⟨h1, h2, h3, rfl, rfl, ?_, ?_⟩
      · simp only [cropImg, hi]; push_cast at *; omega
      · simp only [cropImg, hi']; push_cast at *; omega
    split_ifs
    · exact key _ rfl rfl
    · exact key _ rfl rfl
  · intro inp l r _ _ _ roi _
    cases roi with
    | none => exact ⟨_, _, rfl, rfl⟩
    | some R => exact ⟨_, _, rfl, rfl⟩

theorem exWorldGr_runs (rows : Nat) (h : rows = 5 ∨ rows = 6) (fl fr : Nat → Nat → F ℚ) :
    Main.main (exWorldGr rows fl fr) exUserG = ((Main.main (exWorldGr rows fl fr) exUserG).1, none) := by
  have : (Main.main (exWorldGr rows fl fr) exUserG).2 = none := by
    obtain ⟨m, cfg, hm⟩ := accepted_ok (w := exWorldOf 1 rows) (user := exUserG) (by rcases h with rfl | rfl <;> decide +kernel)
    refine C81_accepted_runs_partial (exWorldGr rows fl fr) _ _ _ cfg m rows 3 0 ((rows : Int) - 1) 0 2 1 1 exUserG_wf
      (exWorldGr_contract rows (by omega) fl fr) rfl (by decide) rfl
      (.inl ⟨_, _, rfl, .inl rfl, .inl rfl⟩) (.inr ⟨rfl, rfl, rfl, rfl, rfl⟩) (by rcases h with rfl | rfl <;> decide) ?_ ?_ (.inl ⟨rfl, rfl⟩) hm
    · intro he
      exact absurd rfl he
    · intro v hv
      have : v = exFlow := (Option.some.inj hv).symm
      subst this
      refine ⟨_, rfl, .inr (.inr ⟨rfl, .inl rfl, ?_⟩)⟩
      intro c st wn mar half hc hi
      have hw : wn = .int 3 := by
        have := congrArg (fun x => match x with | .ok (_, _, w, _) => w | .error _ => J.null) hc
        exact this.symm
      subst hw
      have : half = 1 := by
        rcases hi with hi | ⟨-, ⟨hi, -⟩ | ⟨hi, -⟩⟩
        · simp only [J.int.injEq] at hi; omega
        · simp at hi
        · simp at hi
      subst this
      exact ⟨⟨1, 2, by rcases h with rfl | rfl <;> decide⟩, ⟨1, 2, by decide⟩⟩
  exact Prod.ext rfl this

theorem exWorldGr_images (rows : Nat) (fl fr : Nat → Nat → F ℚ) (left right : Img ℚ) (h : ImagesRead (exWorldGr rows fl fr) exL exR none left right) :
    left = exImgRows rows fl ∧ right = exImgRows rows fr := by
  obtain ⟨lj, rj, k1, k2, h1, h2⟩ := h
  have g1 := k1 "img" _ rfl rfl
  have g2 := k2 "img" _ rfl rfl
  simp only [exWorldGr, Except.ok.injEq] at h1 h2
  have e1 : isLeftSection (.obj lj) = true := by simp [isLeftSection, g1, readValue]
  have e2 : isLeftSection (.obj rj) = false := by simp [isLeftSection, g2, readValue]
  rw [e1, if_pos rfl] at h1
  rw [e2, if_neg (by decide)] at h2
  exact ⟨h1.symm, h2.symm⟩

theorem exWorldGr_flowed (rows : Nat) (fl fr : Nat → Nat → F ℚ) : ∃ p mc inp f,
    Flowed (exWorldGr rows fl fr) exUserG p mc inp exL exR f rows 3 ⟨.const 0, 1⟩ ⟨.const 0, 1⟩ 1 1 .nan 1 1 .min sad 1 1 :=
  ⟨_, _, _, _, rfl, rfl, rfl, rfl, rfl, rfl, rfl, rfl, .inl ⟨_, rfl, .inl rfl⟩, rfl, ⟨_, _, _, _, rfl, .inl rfl⟩,
    ⟨_, _, _, _, _, .int 1, rfl, rfl, rfl, .inl rfl, rfl, rfl⟩,
    ⟨⟨_, rfl, ⟨_, _, _, rfl, rfl, rfl, .inl rfl, .inl ⟨_, .inl rfl, rfl⟩⟩, ⟨_, _, _, rfl, rfl, rfl, .inl rfl, .inl ⟨_, .inl rfl, rfl⟩⟩⟩,
    .inr ⟨rfl, rfl, rfl, rfl, rfl⟩,
    ⟨_, _, _, rfl, rfl, rfl, .inl ⟨_, _, rfl, .inl rfl, .inl rfl⟩, .inl ⟨_, rfl, .inr (.inr (.inl ⟨rfl, rfl⟩))⟩⟩⟩⟩

/-- Whatever the scene, seen in a frame of five rows and in a frame of six rows which begins one row above: the middle row of the first. -/
example (fl fr : Nat → Nat → F ℚ) : ∃ files rest files' rest',
    Main.main (exWorldGr 5 (fun x y => fl (x + 1) y) (fun x y => fr (x + 1) y)) exUserG = (.rasters files :: rest, none) ∧
    Main.main (exWorldGr 6 fl fr) exUserG = (.rasters files' :: rest', none) ∧
    files'.row.values 3 1 = files.row.values 2 1 ∧ files'.col.values 3 1 = files.col.values 2 1 ∧
      files'.score.values 3 1 = files.score.values 2 1 := by
  obtain ⟨p, mc, inp, f, cfg⟩ := exWorldGr_flowed 5 (fun x y => fl (x + 1) y) (fun x y => fr (x + 1) y)
  obtain ⟨p', mc', inp', f', cfg'⟩ := exWorldGr_flowed 6 fl fr
  have r := exWorldGr_runs 5 (.inl rfl) (fun x y => fl (x + 1) y) (fun x y => fr (x + 1) y)
  have r' := exWorldGr_runs 6 (.inr rfl) fl fr
  have ct := exWorldGr_contract 5 (by decide) (fun x y => fl (x + 1) y) (fun x y => fr (x + 1) y)
  have ct' := exWorldGr_contract 6 (by decide) fl fr
  obtain ⟨files, rest, files', rest', left, right, left', right', o, o', im, im', z, z', key⟩ :=
    C131_overlap_flow _ _ _ _ _ _ _ _ _ _ _ _ _ _ _ _ _ _ 5 3 6 3 _ _ _ _ 1 1 1 1 _ 1 1 .min sad 1 1
    exUserG_wf exUserG_wf ct.disk ct.pandora ct.keeps ct.offset rfl ct'.disk ct'.pandora ct'.keeps ct'.offset rfl
    cfg cfg' rfl (fun _ _ _ => ⟨rfl, rfl⟩) (fun _ _ _ _ h => h) r r'
  obtain ⟨rfl, rfl⟩ := exWorldGr_images _ _ _ _ _ im
  obtain ⟨rfl, rfl⟩ := exWorldGr_images _ _ _ _ _ im'
  have b := z _ List.mem_cons_self
  have b' := z' _ List.mem_cons_self
  refine ⟨files, rest, files', rest', by rw [r]; exact congrArg (·, none) o, by rw [r']; exact congrArg (·, none) o', ?_⟩
  have moved : ∀ f : Nat → Nat → F ℚ, ∀ x y : Int, 0 ≤ ((2 : Nat) : Int) + x → f (((3 : Nat) : Int) + x).toNat (((1 : Nat) : Int) + y).toNat =
      f ((((2 : Nat) : Int) + x).toNat + 1) (((1 : Nat) : Int) + y).toNat := by
    intro f x y hx
    congr 1
    omega
  refine key 2 1 3 1 2 1 3 1 ((b.1 2).2 (by decide)) ((b.2 1).2 (by decide)) ((b'.1 3).2 (by decide)) ((b'.2 1).2 (by decide)) rfl rfl rfl rfl
    ⟨rfl, rfl⟩ ⟨rfl, rfl⟩ ⟨rfl, ⟨fun x hx y hy => ⟨?_, rfl⟩, rfl⟩, by simp [exImgRows, exLeftImg], fun x h1 h2 => ?_, fun y h1 h2 => Iff.rfl,
      fun x y h1 h2 h3 h4 h5 _ _ _ => moved fr x y h5⟩
    ⟨fun x hx y hy => ?_, fun x h1 h2 => ?_, fun y h1 h2 => Iff.rfl, fun x y h1 h2 h3 h4 h5 _ _ _ => moved fr x y h5⟩
    ⟨fun q => ⟨⟨⟨1, by decide, by decide⟩, ⟨1, by decide, by decide⟩⟩, q.2⟩, fun q => ⟨⟨⟨1, by decide, by decide⟩, ⟨1, by decide, by decide⟩⟩, q.2⟩⟩
  · show fl (3 + x - 1) (1 + y - 1) = fl (2 + x - 1 + 1) (1 + y - 1)
    congr 1
    omega
  · simp only [initAt, exImgRows] at *
    omega
  · show fl (3 + x - 1) (1 + y - 1) = fl (2 + x - 1 + 1) (1 + y - 1)
    congr 1
    omega
  · simp only [initAt, exImgRows] at *
    omega

end Verif.Props
