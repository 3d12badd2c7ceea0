import Verif.Spec.RefinedTiles
import Verif.Props.Dichotomised
import Verif.Props.Overlap
import Verif.Props.Tiles

/-!
# C132, C133: frames and regions with a dichotomy
-/

namespace Verif.Props

open Verif Verif.Config Verif.Machine Verif.ImgTools Verif.MatchingCost Verif.Disparity Verif.Estimation Verif.Run Verif.Main Verif.Spec
  Verif.Save Verif.Statistics

set_option linter.unusedSectionVars false

variable {K : Type} [Field K] [LinearOrder K] [IsStrictOrderedRing K] [FloorRing K]

/-- A constant interval has the same extent everywhere. -/
theorem sameExtent_const {d : Disp} {i : Int} (hi : d.init = .const i) (img img' : Img K) : SameExtent d d img img' := by
  intro f l f' l' h h'
  have e : ∀ a b, initAt d a b = i := by
    intro a b
    unfold initAt
    rw [hi]
  obtain ⟨-, ⟨a1, -, b1, -, w1⟩, a2, -, b2, -, w2⟩ := h
  obtain ⟨-, ⟨a3, -, b3, -, w3⟩, a4, -, b4, -, w4⟩ := h'
  rw [e] at w1 w2 w3 w4
  omega

section
variable {me : Measure} {dRow dCol dRow' dCol' : Disp} {n k it : Nat} {g : Kernel K} {r c r' c' fr lr fc lc : Int} {cost cost' : K → K → F K}
  {invalid r0 c0 s0 row col score r1 c1 s1 row' col' score' : F K}

/-- The disparity of one pixel everywhere. -/
def pinned (d : Disp) (r c : Int) : Disp := ⟨.const (initAt d r c), d.range⟩

/-- Two pixels with the same intervals and the same costs. -/
theorem searched_moved (hn : n = 2 ^ k) (ir : SameIntervalMoved dRow dRow' r c r' c') (ic : SameIntervalMoved dCol dCol' r c r' c')
    (hc : ∀ x y, ReadPair dRow dCol n g.before (g.size - 1 - g.before) r c x y → cost' x y = cost x y)
    (b : BestPair me (AskedPair dRow dCol n r c) cost invalid r0 c0 s0)
    (p : SearchedPixel me (seen dRow dCol fr lr fc lc r c cost) (filtered g n (seen dRow dCol fr lr fc lc r c cost)) k it
      (initAt dRow r c - dRow.range) (initAt dRow r c + dRow.range) (initAt dCol r c - dCol.range) (initAt dCol r c + dCol.range)
      invalid r0 c0 row col score)
    (b' : BestPair me (AskedPair dRow' dCol' n r' c') cost' invalid r1 c1 s1)
    (p' : SearchedPixel me (seen dRow' dCol' fr lr fc lc r' c' cost') (filtered g n (seen dRow' dCol' fr lr fc lc r' c' cost')) k it
      (initAt dRow' r' c' - dRow'.range) (initAt dRow' r' c' + dRow'.range) (initAt dCol' r' c' - dCol'.range) (initAt dCol' r' c' + dCol'.range)
      invalid r1 c1 row' col' score') :
    row' = row ∧ col' = col ∧ score' = score := by
  have one : ∀ v : F K, F.mul (.fin 1) v = v := by
    intro v
    cases v <;> simp [F.mul]
  have res := searched_scaled (α := (1 : K)) (dRow' := pinned dRow' r' c') (dCol' := pinned dCol' r' c') (r := r) (c := c) one_pos hn ir ic
    (fun x y h => (hc x y h).trans (one _).symm) b p b' p'
  rwa [one] at res

end

/-- C132: two images of the same scene, with different frames, give the same refined disparities where they overlap. Two successful executions on
full images, possibly of different sizes, without estimation, with the same subpixel factor, window cost, invalid value, iterations and kernel,
whose intervals have the same first and last disparities. At a pixel of the first and a pixel of the second which have the same intervals and see the
same scene, within the intervals extended by the samples of the kernel, the three values are the same. -/
theorem C132_overlap_dichotomy (w w' : World K) (user user' p p' mc mc' inp inp' l r l' r' f f' : Fields) (out out' : List (Written K))
    (H W H' W' : Nat) (dRow dCol dRow' dCol' : Disp) (invalid : F K) (n hw : Nat) (me : Measure) (ker : List (F K × F K) → F K) (it : Nat) (g : Kernel K)
    (wf : user.wf) (wf' : user'.wf)
    (hdisk : DiskContract w H W) (hpan : PandoraContract w) (hkeeps : PandoraKeeps w.pandora) (hzoom : w.run.zoom = zoomLinear)
    (hdisk' : DiskContract w' H' W') (hpan' : PandoraContract w') (hkeeps' : PandoraKeeps w'.pandora) (hzoom' : w'.run.zoom = zoomLinear)
    (cfg : Dichotomised w user p mc inp l r f H W dRow dCol invalid n hw me ker it g)
    (cfg' : Dichotomised w' user' p' mc' inp' l' r' f' H' W' dRow' dCol' invalid n hw me ker it g) (hHW : 2 ≤ H ∧ 2 ≤ W) (hHW' : 2 ≤ H' ∧ 2 ≤ W')
    (h : Main.main w user = (out, none)) (h' : Main.main w' user' = (out', none)) :
    ∃ files rest files' rest' left right left' right', out = .rasters files :: rest ∧ out' = .rasters files' :: rest' ∧
      ImagesRead w l r none left right ∧ ImagesRead w' l' r' none left' right' ∧
      (∀ f ∈ [files.row, files.col, files.score], f.h = H ∧ f.w = W) ∧ (∀ f ∈ [files'.row, files'.col, files'.score], f.h = H' ∧ f.w = W') ∧
      (SameExtent dRow dRow' left left' → SameExtent dCol dCol' left left' →
        ∀ a < H, ∀ b < W, ∀ a' < H', ∀ b' < W', SameIntervalMoved dRow dRow' a b a' b' → SameIntervalMoved dCol dCol' a b a' b' →
        SameScene hw left right left' right' a b a' b'
          (initAt dRow a b - dRow.range - g.before) (initAt dRow a b + dRow.range + (g.size - 1 - g.before : Nat))
          (initAt dCol a b - dCol.range - g.before) (initAt dCol a b + dCol.range + (g.size - 1 - g.before : Nat)) →
        files'.row.values a' b' = files.row.values a b ∧ files'.col.values a' b' = files.col.values a b ∧
          files'.score.values a' b' = files.score.values a b) := by
  obtain ⟨s⟩ := dichotomised_stages cfg wf hpan h
  obtain ⟨s'⟩ := dichotomised_stages cfg' wf' hpan' h'
  obtain ⟨k, fr, lr, fc, lc, gmin, gmax, hk, im, ⟨sl, sr⟩, -, ⟨x1, x2⟩, hg, z, key⟩ := s.dichotomised cfg wf hdisk hkeeps hzoom hHW
  obtain ⟨k', fr', lr', fc', lc', gmin', gmax', hk', im', ⟨sl', sr'⟩, -, ⟨x1', x2'⟩, hg', z', key'⟩ :=
    s'.dichotomised cfg' wf' hdisk' hkeeps' hzoom' hHW'
  obtain rfl : k' = k := Nat.pow_right_injective (le_refl 2) (hk'.symm.trans hk)
  have hn : 0 < n := by rw [hk]; positivity
  refine ⟨s.files, _, s'.files, _, s.left.img, s.right.img, s'.left.img, s'.right.img, s.outIs, s'.outIs, im, im', z, z',
    fun t1 t2 a ha b hb a' ha' b' hb' ir ic scene => ?_⟩
  obtain ⟨rfl, rfl⟩ := t1 _ _ _ _ x1 x1'
  obtain ⟨rfl, rfl⟩ := t2 _ _ _ _ x2 x2'
  obtain ⟨r0, c0, s0, cost, e1, b1, p1⟩ := key a ha b hb
  obtain ⟨r1, c1, s1, cost', e2, b2, p2⟩ := key' a' ha' b' hb'
  obtain ⟨g1, g2⟩ := hg a ha b hb
  obtain ⟨g1', g2'⟩ := hg' a' ha' b' hb'
  refine searched_moved hk ir ic ?_ b1 p1 b2 p2
  obtain ⟨c1, c2⟩ := ic
  rintro x y ⟨⟨kx, -, hkx, -⟩, ⟨q1, q2⟩, q3, q4⟩
  rw [e1, e2]
  refine window_scene scene (slab_displaced s.right.img n hn x ⟨kx, hkx⟩) (slab_displaced s'.right.img n hn x ⟨kx, hkx⟩) q1 q2 q3 q4 (by omega)
    (by omega) ⟨?_, ?_⟩ ⟨?_, ?_⟩
  · rw [g1]; exact q3
  · rw [g2]; exact q4
  · rw [g1', ← c1]; exact q3
  · rw [g2', ← c2]; exact q4

/-! ### Regions -/

section
variable {w : World K} {user p mc inp l r f : Fields} {H W : Nat} {dRow dCol : Disp} {rf rl cf cl : Int} {invalid : F K} {n hw : Nat} {me : Measure}
  {ker : List (F K × F K) → F K} {it : Nat} {g : Kernel K} {out : List (Written K)}

theorem zoned_stages (cfg : DichotomisedZone w user p mc inp l r f H W dRow dCol rf rl cf cl invalid n hw me ker it g) (wf : user.wf)
    (hpan : PandoraContract w) (h : Main.main w user = (out, none)) : Nonempty (Stages w user p out) := by
  obtain ⟨sr, sc, ask⟩ := cfg.asks
  refine main_stages w user p out wf hpan cfg.pipeline ?_ h
  obtain ⟨pl, mc, disp, a1, a2, a3, -⟩ := ask.steps
  rw [cfg.pipeline, Option.some.injEq, J.obj.injEq] at a1
  subst a1
  exact (Fields.get_isSome _ _).1 (by rw [a3]; rfl)

/-- The pixels of an execution with a dichotomy, on a region or on full images: those whose extended window is inside have the costs of the full
images. -/
theorem Stages.zoned (s : Stages w user p out)
    (cfg : DichotomisedZone w user p mc inp l r f H W dRow dCol rf rl cf cl invalid n hw me ker it g) (wf : user.wf)
    (hdisk : DiskContract w H W) (hcrop : CropsWhole w H W) (hkeeps : PandoraKeeps w.pandora) (hzoom : w.run.zoom = zoomLinear)
    (hne : rf < rl ∧ rl < H ∧ cf < cl ∧ cl < W) {lj rj : J} {full fullR : Img K} (l1 : s.inp.get "left" = some lj)
    (l2 : s.inp.get "right" = some rj) (f1 : w.files.read lj none = .ok full) (f2 : w.files.read rj none = .ok fullR)
    (hnd : fullR.noData ≠ .nan) :
    ∃ (k : Nat) (fr lr fc lc : Int), n = 2 ^ k ∧ ReadZone s.left.img s.roi H W rf rl cf cl ∧
      (Extent dRow s.left.img fr lr ∧ Extent dCol s.left.img fc lc) ∧
      (∀ f ∈ [s.files.row, s.files.col, s.files.score], (∀ i : Nat, i < f.h ↔ rf + (i : Int) ≤ rl) ∧ ∀ j : Nat, j < f.w ↔ cf + (j : Int) ≤ cl) ∧
      ∀ i < s.files.row.h, ∀ j < s.files.row.w, ∀ r c : Int, r = rf + i → c = cf + j →
        InsideExtended hw g.before (g.size - 1 - g.before) rf rl cf cl r c →
        ∃ r0 c0 s0, ∃ cost : K → K → F K,
        (∀ x y, ReadPair dRow dCol n g.before (g.size - 1 - g.before) r c x y →
          cost x y = Pandora.windowCost hw ker full (slabImg zoomLinear fullR n x) (wholeGrid dCol (-dCol.range - g.before) H W)
            (wholeGrid dCol (dCol.range + (g.size - 1 - g.before : Nat)) H W) r.toNat c.toNat y) ∧
        BestPair me (AskedPair dRow dCol n r c) cost invalid r0 c0 s0 ∧
        SearchedPixel me (seen dRow dCol fr lr fc lc r c cost) (filtered g n (seen dRow dCol fr lr fc lc r c cost)) k it
          (initAt dRow r c - dRow.range) (initAt dRow r c + dRow.range) (initAt dCol r c - dCol.range) (initAt dCol r c + dCol.range) invalid r0 c0
          (s.files.row.values i j) (s.files.col.values i j) (s.files.score.values i j) := by
  obtain ⟨sr, sc, ask⟩ := cfg.asks
  obtain ⟨hn, -, -, dRow1, dCol1, k, fr, lr, fc, lc, gmin, gmax, k1, -, i1, i2, i3, i4, i5, i6, iz, i7⟩ :=
    s.searchedWinner hdisk hkeeps wf cfg.pipeline ask.zone hne cfg.refinement cfg.method cfg.iterations cfg.kernel cfg.cost cfg.matcher
  obtain ⟨j1, j2⟩ := i1 cfg.noEstimation
  obtain ⟨⟨rfl, rfl⟩, -, rfl⟩ := s.asked wf cfg.pipeline cfg.noEstimation ask j1 j2
  have icov : (Covers dRow s.left.img.row0 s.left.img.col0 s.left.img.h s.left.img.w ∧
      Covers dCol s.left.img.row0 s.left.img.col0 s.left.img.h s.left.img.w) ∧ 0 ≤ dRow.range ∧ 0 ≤ dCol.range := by
    obtain ⟨dR, dC, L, -, -, -, e1, e2, e3, e4, -, -, -, -, -, -, -, -, e8, -⟩ :=
      s.volumes hdisk (s.zone hdisk ask.zone ⟨hne.2.1, hne.2.2.2⟩).1 wf cfg.pipeline
    obtain ⟨g1, g2⟩ := e8 cfg.noEstimation
    obtain ⟨⟨rfl, rfl⟩, -⟩ := s.asked wf cfg.pipeline cfg.noEstimation ask g1 g2
    rw [e2] at e3 e4
    exact ⟨⟨e3, e4⟩, e1⟩
  obtain ⟨icov, rr⟩ := icov
  obtain ⟨-, -, lj', rj', l1', l2', l3, l4⟩ := created_input s.datasets
  rw [l1, Option.some.injEq] at l1'
  rw [l2, Option.some.injEq] at l2'
  subst l1' l2'
  obtain ⟨w1, w2, w3, w4⟩ := hdisk.whole _ _ f1
  obtain ⟨w1', w2', w3', w4'⟩ := hdisk.whole _ _ f2
  refine ⟨k, fr, lr, fc, lc, k1, i2, i4, iz, fun i hi j hj r c er ec hin => ?_⟩
  obtain ⟨⟨a, b, ha, hb, ea, eb⟩, r0, c0, s0, cost, hc, hb', hp⟩ := i7 i hi j hj
  rw [← er] at ea
  rw [← ec] at eb
  rw [← er, ← ec] at hb' hp
  refine ⟨r0, c0, s0, cost, fun x y hxy => ?_, hb', hp⟩
  rw [hc, hzoom, ← er, ← ec]
  have p1 : 0 ≤ s.left.img.row0 ∧ 0 ≤ s.left.img.col0 := by
    cases hR : s.roi with
    | none =>
      rw [hR] at i2
      obtain ⟨q1, q2, -⟩ := i2
      omega
    | some R =>
      rw [hR] at i2
      obtain ⟨q1, -⟩ := i2
      rw [q1.row0, q1.col0]
      exact ⟨le_max_left _ _, le_max_left _ _⟩
  have ta : (r - s.left.img.row0).toNat = a := by omega
  have tb : (c - s.left.img.col0).toNat = b := by omega
  have ta' : r.toNat = a + s.left.img.row0.toNat := by omega
  have tb' : c.toNat = b + s.left.img.col0.toNat := by omega
  rw [ta, tb]
  have hg : gmin.get a b = (wholeGrid dCol (-dCol.range - g.before) H W).get (a + s.left.img.row0.toNat) (b + s.left.img.col0.toNat) ∧
      gmax.get a b = (wholeGrid dCol (dCol.range + (g.size - 1 - g.before : Nat)) H W).get (a + s.left.img.row0.toNat)
        (b + s.left.img.col0.toNat) := by
    rw [i5 a ha b hb, i6 a ha b hb]
    simp only [wholeGrid]
    push_cast
    rw [Int.toNat_of_nonneg p1.1, Int.toNat_of_nonneg p1.2, add_comm (a : Int), add_comm (b : Int)]
    exact ⟨rfl, rfl⟩
  obtain ⟨⟨kx, ky, hx, hy⟩, ⟨u1, u2⟩, u3, u4⟩ := hxy
  cases hR : s.roi with
  | none =>
    rw [hR] at l3 l4 i2
    obtain ⟨q1, q2, -⟩ := i2
    rw [f1, Except.ok.injEq] at l3
    rw [f2, Except.ok.injEq] at l4
    rw [ta', tb', q1, q2, ← l3, ← l4, Int.toNat_zero, add_zero, add_zero]
    rw [q1, q2, Int.toNat_zero, add_zero, add_zero] at hg
    by_cases hf : FitsIn hw full fullR a b x y
    · exact (crop_cost (CropOf.self full) (CropOf.self fullR) hn ⟨kx, hx⟩ hnd hg).1 hf
    · rw [(crop_cost (CropOf.self full) (CropOf.self fullR) hn ⟨kx, hx⟩ hnd hg).2 hf]
      exact ((crop_cost (CropOf.self full) (CropOf.self fullR) hn ⟨kx, hx⟩ hnd ⟨rfl, rfl⟩).2 hf).symm
  | some R =>
    rw [hR] at l3 l4 i2
    obtain ⟨q1, q2, q3, q4, q5⟩ := i2
    obtain ⟨R0, -, q6⟩ := s.region hR j1 j2
    have kR : CropOk s.right.img R H W := hdisk.crop _ _ _ l4 q1.rows q1.cols q1.margins
    have hcl := hcrop _ _ _ _ f1 l3 q1
    have hcr := hcrop _ _ _ _ f2 l4 kR
    rw [show s.right.img.row0 = s.left.img.row0 by rw [kR.row0, q1.row0], show s.right.img.col0 = s.left.img.col0 by rw [kR.col0, q1.col0]] at hcr
    rw [ta', tb']
    by_cases hf : FitsIn hw s.left.img s.right.img a b x y
    · exact (crop_cost hcl hcr hn ⟨kx, hx⟩ hnd hg).1 hf
    · rw [(crop_cost hcl hcr hn ⟨kx, hx⟩ hnd hg).2 hf]
      by_contra hne'
      have b0 := cost_fits hn ⟨kx, hx⟩ hnd (by rw [w3, w3']) (by rw [w4, w4']) ⟨w1, w2⟩ (Ne.symm hne')
      rw [show ((a + s.left.img.row0.toNat : Nat) : Int) = r by omega, show ((b + s.left.img.col0.toNat : Nat) : Int) = c by omega] at b0
      obtain ⟨⟨b1, b2, b3, b4⟩, b5, b6, b7, b8⟩ := b0
      obtain ⟨⟨t1, t2, t3, t4, -⟩, -, c1, c2⟩ := C18_margins_cover_disparities R0 dCol dRow R R q6
      obtain ⟨⟨x1, x2⟩, x3, x4⟩ := hin
      have v1 : initAt dRow r c - dRow.range - g.before ≤ ⌊x⌋ := Int.le_floor.2 u1
      have v2 : ⌈x⌉ ≤ initAt dRow r c + dRow.range + (g.size - 1 - g.before : Nat) := Int.ceil_le.2 u2
      have v3 : initAt dCol r c - dCol.range - g.before ≤ ⌊y⌋ := Int.le_floor.2 u3
      have v4 : ⌈y⌉ ≤ initAt dCol r c + dCol.range + (g.size - 1 - g.before : Nat) := Int.ceil_le.2 u4
      obtain ⟨d1, d2⟩ := asked_range_at icov.1 (r := r) (c := c) (by omega) (by omega)
        (x := ((initAt dRow r c - dRow.range : Int) : K)) ⟨le_rfl, Int.cast_le.2 (by omega)⟩
      obtain ⟨d3, d4⟩ := asked_range_at icov.2 (r := r) (c := c) (by omega) (by omega)
        (x := ((initAt dCol r c - dCol.range : Int) : K)) ⟨le_rfl, Int.cast_le.2 (by omega)⟩
      obtain ⟨d5, d6⟩ := asked_range_at icov.1 (r := r) (c := c) (by omega) (by omega)
        (x := ((initAt dRow r c + dRow.range : Int) : K)) ⟨Int.cast_le.2 (by omega), le_rfl⟩
      obtain ⟨d7, d8⟩ := asked_range_at icov.2 (r := r) (c := c) (by omega) (by omega)
        (x := ((initAt dCol r c + dCol.range : Int) : K)) ⟨Int.cast_le.2 (by omega), le_rfl⟩
      rw [Int.floor_intCast] at d1 d3
      rw [Int.ceil_intCast] at d6 d8
      have m1 := (c2 (r - hw - g.before) _ (by omega) (by omega) d1).1
      have m2 := (c2 (r + hw + (g.size - 1 - g.before : Nat)) _ (by omega) (by omega) d6).2
      have m3 := (c1 (c - hw - g.before) _ (by omega) (by omega) d3).1
      have m4 := (c1 (c + hw + (g.size - 1 - g.before : Nat)) _ (by omega) (by omega) d8).2
      have z1 := q1.row0
      have z2 := q1.col0
      have z3 := q1.row1
      have z4 := q1.col1
      have z5 := q1.margins
      rw [fitsIn_zone i3.1 i3.2 ea eb] at hf
      refine hf ⟨⟨?_, ?_, ?_, ?_⟩, ?_, ?_, ?_, ?_⟩ <;> omega

end

/-- C133 (partial): two executions with a dichotomy on two zones of the same images, regions of interest or the full images, give the same values at
the pixels they share, without estimation, with the same subpixel factor, window cost, intervals, invalid value, iterations and kernel, when the
intervals of the pixels read by both have the same first and last disparities. Proved at the pixels whose window extended by the samples of the
kernel is inside both zones. Missing: the pixels nearer to the border of one of the zones (`C133_false`). -/
theorem C133_zones_agree_dichotomy_partial (w : World K) (user user' p p' mc mc' inp inp' l r f f' : Fields) (out out' : List (Written K))
    (H W : Nat) (dRow dCol : Disp) (rf rl cf cl rf' rl' cf' cl' : Int) (invalid : F K) (n hw : Nat) (me : Measure) (ker : List (F K × F K) → F K)
    (it : Nat) (g : Kernel K) (wf : user.wf) (wf' : user'.wf)
    (hdisk : DiskContract w H W) (hcrop : CropsWhole w H W) (hwhole : WholeReadable w) (hpan : PandoraContract w)
    (hkeeps : PandoraKeeps w.pandora) (hzoom : w.run.zoom = zoomLinear)
    (cfg : DichotomisedZone w user p mc inp l r f H W dRow dCol rf rl cf cl invalid n hw me ker it g)
    (cfg' : DichotomisedZone w user' p' mc' inp' l r f' H W dRow dCol rf' rl' cf' cl' invalid n hw me ker it g)
    (hne : rf < rl ∧ rl < H ∧ cf < cl ∧ cl < W) (hne' : rf' < rl' ∧ rl' < H ∧ cf' < cl' ∧ cl' < W)
    (h : Main.main w user = (out, none)) (h' : Main.main w user' = (out', none)) :
    ∃ (files : Files K (F K)) (rest : List (Written K)) (files' : Files K (F K)) (rest' : List (Written K)) (full fullR left left' : Img K)
      (roi roi' : Option Roi), out = .rasters files :: rest ∧ out' = .rasters files' :: rest' ∧
      ImagesRead w l r none full fullR ∧ ReadZone left roi H W rf rl cf cl ∧ ReadZone left' roi' H W rf' rl' cf' cl' ∧
      (∀ f ∈ [files.row, files.col, files.score], (∀ i : Nat, i < f.h ↔ rf + (i : Int) ≤ rl) ∧ ∀ j : Nat, j < f.w ↔ cf + (j : Int) ≤ cl) ∧
      (∀ f ∈ [files'.row, files'.col, files'.score], (∀ i : Nat, i < f.h ↔ rf' + (i : Int) ≤ rl') ∧ ∀ j : Nat, j < f.w ↔ cf' + (j : Int) ≤ cl') ∧
      (fullR.noData ≠ .nan → SameExtent dRow dRow left left' → SameExtent dCol dCol left left' →
        ∀ i j i' j', i < files.row.h → j < files.row.w → i' < files'.row.h → j' < files'.row.w →
        rf + (i : Int) = rf' + (i' : Int) → cf + (j : Int) = cf' + (j' : Int) →
        InsideExtended hw g.before (g.size - 1 - g.before) rf rl cf cl (rf + (i : Int)) (cf + (j : Int)) →
        InsideExtended hw g.before (g.size - 1 - g.before) rf' rl' cf' cl' (rf + (i : Int)) (cf + (j : Int)) →
        files'.row.values i' j' = files.row.values i j ∧ files'.col.values i' j' = files.col.values i j ∧
          files'.score.values i' j' = files.score.values i j) := by
  obtain ⟨s⟩ := zoned_stages cfg wf hpan h
  obtain ⟨s'⟩ := zoned_stages cfg' wf' hpan h'
  obtain ⟨-, -, lj, rj, l1, l2, l3, l4⟩ := created_input s.datasets
  have hfull : ∀ {v : J} {img : Img K}, w.files.read v s.roi = .ok img → ∃ full, w.files.read v none = .ok full := by
    intro v img hv
    cases hR : s.roi with
    | none => exact ⟨img, by rw [← hv, hR]⟩
    | some R =>
      rw [hR] at hv
      exact hwhole _ _ _ hv
  obtain ⟨full, f1⟩ := hfull l3
  obtain ⟨fullR, f2⟩ := hfull l4
  obtain ⟨sr, sc, ask⟩ := cfg.asks
  obtain ⟨sr', sc', ask'⟩ := cfg'.asks
  have l1' := l1
  have l2' := l2
  rw [s.same_side s' wf wf' cfg.noEstimation cfg'.noEstimation cfg.input cfg'.input cfg.left cfg'.left] at l1'
  rw [s.same_side s' wf wf' cfg.noEstimation cfg'.noEstimation cfg.input cfg'.input cfg.right cfg'.right] at l2'
  obtain ⟨-, -, -, _, _, _, _, _, _, _, _, _, -, -, -, z2, -, -, -, -, z, -⟩ :=
    s.searchedWinner hdisk hkeeps wf cfg.pipeline ask.zone hne cfg.refinement cfg.method cfg.iterations cfg.kernel cfg.cost cfg.matcher
  obtain ⟨-, -, -, _, _, _, _, _, _, _, _, _, -, -, -, z2', -, -, -, -, z', -⟩ :=
    s'.searchedWinner hdisk hkeeps wf' cfg'.pipeline ask'.zone hne' cfg'.refinement cfg'.method cfg'.iterations cfg'.kernel cfg'.cost cfg'.matcher
  refine ⟨s.files, _, s'.files, _, full, fullR, s.left.img, s'.left.img, s.roi, s'.roi, s.outIs, s'.outIs, ?_, z2, z2', z, z',
    fun hnd t1 t2 i j i' j' hi hj hi' hj' e1 e2 n1 n2 => ?_⟩
  · obtain ⟨lj', rj', g1, g2, g3, g4⟩ := s.sections wf cfg.input cfg.left cfg.right
    rw [l1, Option.some.injEq] at g1
    rw [l2, Option.some.injEq] at g2
    subst g1 g2
    exact ⟨lj', rj', g3, g4, f1, f2⟩
  · obtain ⟨k, fr, lr, fc, lc, hk, -, ⟨x1, x2⟩, -, key⟩ := s.zoned cfg wf hdisk hcrop hkeeps hzoom hne l1 l2 f1 f2 hnd
    obtain ⟨k', fr', lr', fc', lc', hk', -, ⟨x1', x2'⟩, -, key'⟩ := s'.zoned cfg' wf' hdisk hcrop hkeeps hzoom hne' l1' l2' f1 f2 hnd
    obtain rfl : k' = k := Nat.pow_right_injective (le_refl 2) (hk'.symm.trans hk)
    obtain ⟨rfl, rfl⟩ := t1 _ _ _ _ x1 x1'
    obtain ⟨rfl, rfl⟩ := t2 _ _ _ _ x2 x2'
    obtain ⟨r0, c0, s0, cost, c1, b1, p1⟩ := key i hi j hj _ _ rfl rfl n1
    obtain ⟨r1, c1', s1, cost', c2, b2, p2⟩ := key' i' hi' j' hj' _ _ e1 e2 n2
    exact searched_moved hk ⟨rfl, rfl⟩ ⟨rfl, rfl⟩ (fun x y q => (c2 x y q).trans (c1 x y q).symm) b1 p1 b2 p2

/-! ## Examples -/

/-- The frames of C116 with a dichotomy. -/
theorem exRowsIt_runs (rows : Nat) (hr : rows = 3 ∨ rows = 4) (fl fr : Nat → Nat → F ℚ) :
    Main.main (exWorldRows rows fl fr) (exUserIt 1) = ((Main.main (exWorldRows rows fl fr) (exUserIt 1)).1, none) := by
  have : (Main.main (exWorldRows rows fl fr) (exUserIt 1)).2 = none := by
    obtain ⟨m, cfg, h⟩ := accepted_ok (w := exWorldQr rows) (user := exUserIt 1) (by rcases hr with rfl | rfl <;> decide +kernel)
    refine C81_accepted_runs_partial (exWorldRows rows fl fr) _ _ _ cfg m rows 3 0 ((rows : Int) - 1) 0 2 1 1 (exUserIt_wf 1)
      (exWorldRows_contract rows (by omega) fl fr) rfl (by decide) rfl
      (.inl ⟨_, _, rfl, .inl rfl, .inl rfl⟩) (.inr ⟨rfl, rfl, rfl, rfl, rfl⟩) (by omega) ?_ ?_ (.inl ⟨rfl, rfl⟩) h
    · intro he
      exact absurd rfl he
    · intro v hv
      have : v = exDichoOf 1 := (Option.some.inj hv).symm
      subst this
      exact ⟨_, rfl, .inr (.inl ⟨rfl, rfl, rfl⟩)⟩
  exact Prod.ext rfl this

theorem exRowsIt_cfg (rows : Nat) (fl fr : Nat → Nat → F ℚ) :
    ∃ p mc inp f, Dichotomised (exWorldRows rows fl fr) (exUserIt 1) p mc inp exL exR f rows 3 ⟨.const 0, 1⟩ ⟨.const 0, 1⟩ .nan 1 0 .min sad 1
      keysKernel :=
  ⟨_, _, _, _, rfl, rfl, rfl, rfl, rfl, rfl, rfl, rfl, ⟨_, 1, rfl, .inl rfl, by omega⟩, ⟨_, rfl, .inl ⟨rfl, rfl⟩⟩, rfl,
    ⟨_, _, _, _, _, .int 1, rfl, rfl, rfl, .inl rfl, rfl, rfl⟩, 1, 1,
    ⟨_, rfl, ⟨_, _, _, rfl, rfl, rfl, .inl rfl, .inl ⟨_, .inl rfl, rfl⟩⟩, ⟨_, _, _, rfl, rfl, rfl, .inl rfl, .inl ⟨_, .inl rfl, rfl⟩⟩⟩,
    .inr ⟨rfl, rfl, rfl, rfl, rfl⟩,
    ⟨_, _, _, rfl, rfl, rfl, .inl ⟨_, _, rfl, .inl rfl, .inl rfl⟩, .inl ⟨_, rfl, .inr (.inr (.inl ⟨rfl, rfl⟩))⟩⟩⟩

/-- Images of a scene of three rows, and images of the same scene with one more row above: the last rows give the same after a dichotomy. -/
example (fl fr : Nat → Nat → F ℚ) : ∃ files rest files' rest',
    Main.main (exWorldRows 3 (fun x y => fl (x + 1) y) (fun x y => fr (x + 1) y)) (exUserIt 1) = (.rasters files :: rest, none) ∧
    Main.main (exWorldRows 4 fl fr) (exUserIt 1) = (.rasters files' :: rest', none) ∧
    ∀ j < 3, files'.row.values 3 j = files.row.values 2 j ∧ files'.col.values 3 j = files.col.values 2 j ∧
      files'.score.values 3 j = files.score.values 2 j := by
  obtain ⟨_, _, _, _, cfg⟩ := exRowsIt_cfg 3 (fun x y => fl (x + 1) y) (fun x y => fr (x + 1) y)
  obtain ⟨_, _, _, _, cfg'⟩ := exRowsIt_cfg 4 fl fr
  have ct := exWorldRows_contract 3 (by decide) (fun x y => fl (x + 1) y) (fun x y => fr (x + 1) y)
  have ct' := exWorldRows_contract 4 (by decide) fl fr
  have h1 := exRowsIt_runs 3 (.inl rfl) (fun x y => fl (x + 1) y) (fun x y => fr (x + 1) y)
  have h2 := exRowsIt_runs 4 (.inr rfl) fl fr
  obtain ⟨files, rest, files', rest', left, right, left', right', o, o', im, im', z, z', key⟩ := C132_overlap_dichotomy _ _ _ _ _ _ _ _ _ _ _ _ _ _ _ _
    _ _ 3 3 4 3 _ _ _ _ .nan 1 0 .min sad 1 keysKernel (exUserIt_wf 1) (exUserIt_wf 1) ct.disk ct.pandora ct.keeps rfl ct'.disk ct'.pandora ct'.keeps rfl
    cfg cfg' (by decide) (by decide) h1 h2
  obtain ⟨rfl, rfl⟩ := exWorldRows_images _ _ _ _ _ im
  obtain ⟨rfl, rfl⟩ := exWorldRows_images _ _ _ _ _ im'
  refine ⟨files, rest, files', rest', by rw [h1]; exact congrArg (·, none) o, by rw [h2]; exact congrArg (·, none) o', fun j hj => ?_⟩
  refine key (sameExtent_const rfl _ _) (sameExtent_const rfl _ _) 2 (by decide) j hj 3 (by decide) j hj ⟨rfl, rfl⟩ ⟨rfl, rfl⟩
    ⟨rfl, ⟨fun x hx y hy => ?_, rfl⟩, ?_, fun x h1 h2 => ?_, fun y h1 h2 => ?_, fun x y h1 h2 _ _ _ _ _ _ => ?_⟩
  · obtain rfl : x = 0 := by omega
    exact ⟨rfl, rfl⟩
  · simp [exImgRows, exLeftImg]
  · simp only [initAt, exImgRows, keysKernel] at *
    omega
  · simp [exImgRows, exLeftImg]
  · simp only [initAt, exImgRows, keysKernel] at *
    rw [show (((3 : Nat) : Int) + x).toNat = (((2 : Nat) : Int) + x).toNat + 1 by omega]

/-! ### Regions of images of six rows and six columns -/

/-- Images of six rows and six columns; the margins are those of a bicubic filter. -/
def exWorldSix (half : Nat) : World ℚ :=
  { exWorldOf half 6 with
    env := ⟨false, fun v => isStr v || decide (v = .null), isStr, fun _ => .ok ⟨1, 6, 6, some 1⟩, fun _ => none, fun _ => .ok (6, 6)⟩
    globalMargins := fun _ _ => ⟨1, 1, 2, 2⟩ }

/-- The image which holds `f`. -/
def exImgSix (f : Nat → Nat → F ℚ) : Img ℚ := { exLeftImg with h := 6, w := 6, im := f }

noncomputable def exWorldBox (half : Nat) (fl fr : Nat → Nat → F ℚ) : World ℚ :=
  { exWorldSix half with
    cost := fun _ => Pandora.windowCost half sad
    files := ⟨fun v roi =>
      let img := if isLeftSection v then exImgSix fl else exImgSix fr
      match roi with
      | none => .ok img
      | some R => .ok (cropImg img R), fun _ => ⟨6, 6, fun _ _ => 0⟩⟩ }

theorem exWorldBox_contract (half : Nat) (fl fr : Nat → Nat → F ℚ) : RunContract (exWorldBox half fl fr) 6 6 := by
  obtain ⟨-, ⟨p, -⟩, k, r, a, o, i, s⟩ := exWorldOf_contract half 6 (by decide)
  refine ⟨⟨⟨by decide, by decide⟩, ?_, ?_, ?_, ?_⟩, ⟨p, fun _ => windowCost_contract half sad sad_finite⟩, k, ?_, fun _ _ _ _ => rfl, o, i, s⟩
  · intro s g h
    simp only [exWorldBox, exWorldSix, Except.ok.injEq] at h
    subst h
    exact ⟨rfl, rfl⟩
  · intro v s h
    simp only [exWorldBox, exWorldSix, Except.ok.injEq] at h
    exact h.symm
  · intro v img h
    simp only [exWorldBox, Except.ok.injEq] at h
    subst h
    split_ifs <;> exact ⟨rfl, rfl, rfl, rfl⟩
  · intro v R img h h1 h2 h3
    simp only [exWorldBox, Except.ok.injEq] at h
    subst h
    have key : ∀ i : Img ℚ, i.h = 6 → i.w = 6 → CropOk (cropImg i R) R 6 6 := by
      intro i hi hi'
      refine ⟨h1, h2, h3, rfl, rfl, ?_, ?_⟩
      · simp only [cropImg, hi]; push_cast at *; omega
      · simp only [cropImg, hi']; push_cast at *; omega
    split_ifs
    · exact key _ rfl rfl
    · exact key _ rfl rfl
  · intro inp l r _ _ _ roi _
    cases roi with
    | none => exact ⟨_, _, rfl, rfl⟩
    | some R => exact ⟨_, _, rfl, rfl⟩

theorem exWorldBox_crops (half : Nat) (fl fr : Nat → Nat → F ℚ) : CropsWhole (exWorldBox half fl fr) 6 6 := by
  intro v R full crop h1 h2 h3
  simp only [exWorldBox, Except.ok.injEq] at h1 h2
  subst h1 h2
  refine cropImg_of _ _ _ _ ?_ ?_ ?_ ?_ ?_ h3 <;> split_ifs <;> rfl

theorem exWorldBox_whole (half : Nat) (fl fr : Nat → Nat → F ℚ) : WholeReadable (exWorldBox half fl fr) := fun _ _ _ _ => ⟨_, rfl⟩

/-- Row disparities around `i` and column disparities around zero. -/
def exInputBox (i k : Int) : Fields := dict [("left", .obj exL), ("right", .obj exR),
  ("row_disparity", .obj (dict [("init", .int i), ("range", .int k)])), ("col_disparity", .obj (dict [("init", .int 0), ("range", .int k)]))]

/-- The rows `0` to `b` with a dichotomy. -/
def exUserBox (i k b : Int) : Fields := dict [("input", .obj (exInputBox i k)),
  ("ROI", .obj (dict [("row", .obj (dict [("first", .int 0), ("last", .int b)])), ("col", .obj (dict [("first", .int 0), ("last", .int 5)]))])),
  ("pipeline", .obj (exPipeline none 1 1 (some (exDichoOf 1))))]

/-- The full images with a dichotomy. -/
def exUserBoxFull (i k : Int) : Fields := dict [("input", .obj (exInputBox i k)), ("pipeline", .obj (exPipeline none 1 1 (some (exDichoOf 1))))]

theorem exUserBox_wf (i k b : Int) : (exUserBox i k b).wf := by
  simp [exUserBox, exInputBox, exL, exR, exPipeline, exDichoOf, dict, Fields.append, Fields.wf, J.wf, Fields.keys]

theorem exUserBoxFull_wf (i k : Int) : (exUserBoxFull i k).wf := by
  simp [exUserBoxFull, exInputBox, exL, exR, exPipeline, exDichoOf, dict, Fields.append, Fields.wf, J.wf, Fields.keys]

theorem exUserBox_zone (i k b : Int) : ZoneIs (exUserBox i k b) 6 6 0 b 0 5 :=
  .inl ⟨_, rfl, _, _, _, _, _, _, _, rfl, rfl, rfl, rfl, rfl, rfl, rfl, .inl rfl, .inl rfl, .inl rfl, .inl rfl⟩

theorem exUserBox_asks (half : Nat) (fl fr : Nat → Nat → F ℚ) (i k b : Int) :
    Asks (exWorldBox half fl fr) (exUserBox i k b) 6 6 ⟨.const i, k⟩ ⟨.const 0, k⟩ 0 b 0 5 1 1 .nan :=
  ⟨⟨_, rfl, ⟨_, _, _, rfl, rfl, rfl, .inl rfl, .inl ⟨_, .inl rfl, rfl⟩⟩, ⟨_, _, _, rfl, rfl, rfl, .inl rfl, .inl ⟨_, .inl rfl, rfl⟩⟩⟩,
    exUserBox_zone _ _ _,
    ⟨_, _, _, rfl, rfl, rfl, .inl ⟨_, _, rfl, .inl rfl, .inl rfl⟩, .inl ⟨_, rfl, .inr (.inr (.inl ⟨rfl, rfl⟩))⟩⟩⟩

theorem exUserBoxFull_asks (half : Nat) (fl fr : Nat → Nat → F ℚ) (i k : Int) :
    Asks (exWorldBox half fl fr) (exUserBoxFull i k) 6 6 ⟨.const i, k⟩ ⟨.const 0, k⟩ 0 5 0 5 1 1 .nan :=
  ⟨⟨_, rfl, ⟨_, _, _, rfl, rfl, rfl, .inl rfl, .inl ⟨_, .inl rfl, rfl⟩⟩, ⟨_, _, _, rfl, rfl, rfl, .inl rfl, .inl ⟨_, .inl rfl, rfl⟩⟩⟩,
    .inr ⟨rfl, rfl, rfl, rfl, rfl⟩,
    ⟨_, _, _, rfl, rfl, rfl, .inl ⟨_, _, rfl, .inl rfl, .inl rfl⟩, .inl ⟨_, rfl, .inr (.inr (.inl ⟨rfl, rfl⟩))⟩⟩⟩

theorem exUserBox_cfg (half : Nat) (fl fr : Nat → Nat → F ℚ) (i k b : Int) :
    ∃ p mc inp f, DichotomisedZone (exWorldBox half fl fr) (exUserBox i k b) p mc inp exL exR f 6 6 ⟨.const i, k⟩ ⟨.const 0, k⟩ 0 b 0 5 .nan 1 half
      .min sad 1 keysKernel :=
  ⟨_, _, _, _, rfl, rfl, rfl, rfl, rfl, rfl, rfl, ⟨_, 1, rfl, .inl rfl, by omega⟩, ⟨_, rfl, .inl ⟨rfl, rfl⟩⟩, rfl,
    ⟨_, _, _, _, _, .int 1, rfl, rfl, rfl, .inl rfl, rfl, rfl⟩, 1, 1, exUserBox_asks half fl fr i k b⟩

theorem exUserBoxFull_cfg (half : Nat) (fl fr : Nat → Nat → F ℚ) (i k : Int) :
    ∃ p mc inp f, DichotomisedZone (exWorldBox half fl fr) (exUserBoxFull i k) p mc inp exL exR f 6 6 ⟨.const i, k⟩ ⟨.const 0, k⟩ 0 5 0 5 .nan 1 half
      .min sad 1 keysKernel :=
  ⟨_, _, _, _, rfl, rfl, rfl, rfl, rfl, rfl, rfl, ⟨_, 1, rfl, .inl rfl, by omega⟩, ⟨_, rfl, .inl ⟨rfl, rfl⟩⟩, rfl,
    ⟨_, _, _, _, _, .int 1, rfl, rfl, rfl, .inl rfl, rfl, rfl⟩, 1, 1, exUserBoxFull_asks half fl fr i k⟩

theorem exUserBox_runs (half : Nat) (fl fr : Nat → Nat → F ℚ) (i k b : Int) (hb : 0 < b ∧ b < 6)
    (hacc : accepted (exWorldSix half) (exUserBox i k b) = true) :
    Main.main (exWorldBox half fl fr) (exUserBox i k b) = ((Main.main (exWorldBox half fl fr) (exUserBox i k b)).1, none) := by
  have : (Main.main (exWorldBox half fl fr) (exUserBox i k b)).2 = none := by
    obtain ⟨m, cfg, h⟩ := accepted_ok hacc
    refine C81_accepted_runs_partial (exWorldBox half fl fr) _ _ _ cfg m 6 6 0 b 0 5 1 1 (exUserBox_wf i k b)
      (exWorldBox_contract half fl fr) rfl (by decide) rfl
      (.inl ⟨_, _, rfl, .inl rfl, .inl rfl⟩) (exUserBox_zone i k b) (by omega) ?_ ?_ (.inl ⟨rfl, rfl⟩) h
    · intro he
      exact absurd rfl he
    · intro v hv
      have : v = exDichoOf 1 := (Option.some.inj hv).symm
      subst this
      exact ⟨_, rfl, .inr (.inl ⟨rfl, rfl, rfl⟩)⟩
  exact Prod.ext rfl this

theorem exUserBoxFull_runs (half : Nat) (fl fr : Nat → Nat → F ℚ) (i k : Int)
    (hacc : accepted (exWorldSix half) (exUserBoxFull i k) = true) :
    Main.main (exWorldBox half fl fr) (exUserBoxFull i k) = ((Main.main (exWorldBox half fl fr) (exUserBoxFull i k)).1, none) := by
  have : (Main.main (exWorldBox half fl fr) (exUserBoxFull i k)).2 = none := by
    obtain ⟨m, cfg, h⟩ := accepted_ok hacc
    refine C81_accepted_runs_partial (exWorldBox half fl fr) _ _ _ cfg m 6 6 0 5 0 5 1 1 (exUserBoxFull_wf i k)
      (exWorldBox_contract half fl fr) rfl (by decide) rfl
      (.inl ⟨_, _, rfl, .inl rfl, .inl rfl⟩) (.inr ⟨rfl, rfl, rfl, rfl, rfl⟩) (by omega) ?_ ?_ (.inl ⟨rfl, rfl⟩) h
    · intro he
      exact absurd rfl he
    · intro v hv
      have : v = exDichoOf 1 := (Option.some.inj hv).symm
      subst this
      exact ⟨_, rfl, .inr (.inl ⟨rfl, rfl, rfl⟩)⟩
  exact Prod.ext rfl this

theorem exWorldBox_images (half : Nat) (fl fr : Nat → Nat → F ℚ) (left right : Img ℚ)
    (h : ImagesRead (exWorldBox half fl fr) exL exR none left right) : left = exImgSix fl ∧ right = exImgSix fr := by
  obtain ⟨lj, rj, k1, k2, h1, h2⟩ := h
  have g1 := k1 "img" _ rfl rfl
  have g2 := k2 "img" _ rfl rfl
  simp only [exWorldBox, Except.ok.injEq] at h1 h2
  have e1 : isLeftSection (.obj lj) = true := by simp [isLeftSection, g1, readValue]
  have e2 : isLeftSection (.obj rj) = false := by simp [isLeftSection, g2, readValue]
  rw [e1, if_pos rfl] at h1
  rw [e2, if_neg (by decide)] at h2
  exact ⟨h1.symm, h2.symm⟩

/-- The rows 0 to 4 against the full images, with windows of one pixel: the pixels of the rows 1 and 2 and of the columns 1 to 3 are refined alike. -/
example (fl fr : Nat → Nat → F ℚ) : ∃ files rest files' rest',
    Main.main (exWorldBox 0 fl fr) (exUserBox 0 1 4) = (.rasters files :: rest, none) ∧
    Main.main (exWorldBox 0 fl fr) (exUserBoxFull 0 1) = (.rasters files' :: rest', none) ∧
    ∀ i j : Nat, 1 ≤ i → i ≤ 2 → 1 ≤ j → j ≤ 3 → files'.row.values i j = files.row.values i j ∧ files'.col.values i j = files.col.values i j ∧
      files'.score.values i j = files.score.values i j := by
  obtain ⟨_, _, _, _, cfg⟩ := exUserBox_cfg 0 fl fr 0 1 4
  obtain ⟨_, _, _, _, cfg'⟩ := exUserBoxFull_cfg 0 fl fr 0 1
  have ct := exWorldBox_contract 0 fl fr
  have h1 := exUserBox_runs 0 fl fr 0 1 4 (by decide) (by decide +kernel)
  have h2 := exUserBoxFull_runs 0 fl fr 0 1 (by decide +kernel)
  obtain ⟨files, rest, files', rest', full, fullR, left, left', roi, roi', o, o', im, -, -, z, z', key⟩ := C133_zones_agree_dichotomy_partial
    (exWorldBox 0 fl fr) _ _ _ _ _ _ _ _ _ _ _ _ _ _ 6 6 _ _ _ _ _ _ _ _ _ _ _ _ _ _ _ _ _ (exUserBox_wf 0 1 4) (exUserBoxFull_wf 0 1) ct.disk
    (exWorldBox_crops 0 fl fr) (exWorldBox_whole 0 fl fr) ct.pandora ct.keeps rfl cfg cfg' (by decide) (by decide) h1 h2
  obtain ⟨rfl, rfl⟩ := exWorldBox_images _ _ _ _ _ im
  refine ⟨files, rest, files', rest', by rw [h1]; exact congrArg (·, none) o, by rw [h2]; exact congrArg (·, none) o', fun i j i1 i2 j1 j2 => ?_⟩
  obtain ⟨y1, y2⟩ := z _ List.mem_cons_self
  obtain ⟨y3, y4⟩ := z' _ List.mem_cons_self
  refine key (by simp [exImgSix, exLeftImg]) (sameExtent_const rfl _ _) (sameExtent_const rfl _ _) i j i j ((y1 i).2 (by omega))
    ((y2 j).2 (by omega)) ((y3 i).2 (by omega)) ((y4 j).2 (by omega)) rfl rfl ?_ ?_
  · simp only [InsideExtended, keysKernel]; omega
  · simp only [InsideExtended, keysKernel]; omega

/-! ### Counterexample -/

/-- The full statement of C133: the two executions give the same values at every pixel they share. -/
def C133Statement : Prop :=
  ∀ (w : World ℚ) (user user' p p' mc mc' inp inp' l r f f' : Fields) (out out' : List (Written ℚ))
    (H W : Nat) (dRow dCol : Disp) (rf rl cf cl rf' rl' cf' cl' : Int) (invalid : F ℚ) (n hw : Nat) (me : Measure) (ker : List (F ℚ × F ℚ) → F ℚ)
    (it : Nat) (g : Kernel ℚ), user.wf → user'.wf → DiskContract w H W → CropsWhole w H W → WholeReadable w → PandoraContract w →
    PandoraKeeps w.pandora → w.run.zoom = zoomLinear →
    DichotomisedZone w user p mc inp l r f H W dRow dCol rf rl cf cl invalid n hw me ker it g →
    DichotomisedZone w user' p' mc' inp' l r f' H W dRow dCol rf' rl' cf' cl' invalid n hw me ker it g →
    rf < rl ∧ rl < H ∧ cf < cl ∧ cl < W → rf' < rl' ∧ rl' < H ∧ cf' < cl' ∧ cl' < W →
    Main.main w user = (out, none) → Main.main w user' = (out', none) →
    ∃ (files : Files ℚ (F ℚ)) (rest : List (Written ℚ)) (files' : Files ℚ (F ℚ)) (rest' : List (Written ℚ)) (full fullR left left' : Img ℚ)
      (roi roi' : Option Roi), out = .rasters files :: rest ∧ out' = .rasters files' :: rest' ∧
      ImagesRead w l r none full fullR ∧ ReadZone left roi H W rf rl cf cl ∧ ReadZone left' roi' H W rf' rl' cf' cl' ∧
      (fullR.noData ≠ .nan → SameExtent dRow dRow left left' → SameExtent dCol dCol left left' →
        ∀ i j i' j', i < files.row.h → j < files.row.w → i' < files'.row.h → j' < files'.row.w →
        rf + (i : Int) = rf' + (i' : Int) → cf + (j : Int) = cf' + (j' : Int) →
        files'.row.values i' j' = files.row.values i j ∧ files'.col.values i' j' = files.col.values i j ∧
          files'.score.values i' j' = files.score.values i j)

theorem exBox_read (half : Nat) (fl fr : Nat → Nat → F ℚ) (roi : Option Roi) (left right : Img ℚ)
    (h : ImagesRead (exWorldBox half fl fr) exL exR roi left right) :
    (left.msk = none ∧ right.msk = none ∧ right.noData = .fin (-1)) ∧
      ((∀ x y, fl x y = .fin 0) → ∀ x y, left.im x y = .fin 0) ∧ ((∀ x y, fr x y = .fin 0) → ∀ x y, right.im x y = .fin 0) := by
  obtain ⟨lj, rj, k1, k2, h1, h2⟩ := h
  have g1 := k1 "img" _ rfl rfl
  have g2 := k2 "img" _ rfl rfl
  simp only [exWorldBox] at h1 h2
  have e1 : isLeftSection (.obj lj) = true := by simp [isLeftSection, g1, readValue]
  have e2 : isLeftSection (.obj rj) = false := by simp [isLeftSection, g2, readValue]
  rw [e1, if_pos rfl] at h1
  rw [e2, if_neg (by decide)] at h2
  cases roi with
  | none =>
    simp only [Except.ok.injEq] at h1 h2
    subst h1 h2
    exact ⟨⟨rfl, rfl, rfl⟩, fun h x y => h x y, fun h x y => h x y⟩
  | some R =>
    simp only [Except.ok.injEq] at h1 h2
    subst h1 h2
    exact ⟨⟨rfl, rfl, rfl⟩, fun h x y => h _ _, fun h x y => h _ _⟩

/-- The pixel of row 1 and column 1 of an execution with windows of three pixels and displacements of two rows. -/
theorem exBox_pixel {user p mc inp f : Fields} {out : List (Written ℚ)} {rl : Int} {fl : Nat → Nat → F ℚ} (hfl : ∀ x y, fl x y = .fin 0)
    (wf : user.wf) (cfg : DichotomisedZone (exWorldBox 1 fl fl) user p mc inp exL exR f 6 6 ⟨.const 2, 0⟩ ⟨.const 0, 0⟩ 0 rl 0 5 .nan 1 1
      .min sad 1 keysKernel) (hrl : rl = 1 ∨ rl = 5) (h : Main.main (exWorldBox 1 fl fl) user = (out, none)) :
    ∃ files rest, out = .rasters files :: rest ∧ (1 < files.row.h ∧ 1 < files.row.w) ∧
      (rl = 1 → user.get "ROI" ≠ none → files.row.values 1 1 = .nan) ∧ (rl = 5 → user.get "ROI" = none → files.row.values 1 1 = .fin 2) := by
  have ct := exWorldBox_contract 1 fl fl
  obtain ⟨s⟩ := zoned_stages cfg wf ct.pandora h
  obtain ⟨sr, sc, ask⟩ := cfg.asks
  obtain ⟨hn, -, -, dRow1, dCol1, k, fr, lr, fc, lc, gmin, gmax, k1, -, i1, i2, i3, i4, i5, i6, iz, i7⟩ :=
    s.searchedWinner ct.disk ct.keeps wf cfg.pipeline ask.zone (by omega) cfg.refinement cfg.method cfg.iterations cfg.kernel cfg.cost cfg.matcher
  obtain ⟨j1, j2⟩ := i1 cfg.noEstimation
  obtain ⟨⟨rfl, rfl⟩, -, hinv⟩ := s.asked wf cfg.pipeline cfg.noEstimation ask j1 j2
  rw [← hinv] at i7
  obtain ⟨⟨m1, m2, m3⟩, m4, m5⟩ := exBox_read _ _ _ _ _ _ (s.images wf cfg.input cfg.left cfg.right)
  obtain ⟨y1, y2⟩ := iz _ List.mem_cons_self
  have z1 : 1 < s.files.row.h := (y1 1).2 (by omega)
  have z2 : 1 < s.files.row.w := (y2 1).2 (by omega)
  obtain ⟨⟨a, b, ha, hb, ea, eb⟩, r0, c0, s0, cost, hc, hb', hp⟩ := i7 1 z1 1 z2
  have hzoom : (exWorldBox 1 fl fl).run.zoom = zoomLinear := rfl
  have ta : ((0 : Int) + ((1 : Nat) : Int) - s.left.img.row0).toNat = a := by omega
  have tb : ((0 : Int) + ((1 : Nat) : Int) - s.left.img.col0).toNat = b := by omega
  simp only [hzoom, ta, tb] at hc
  have g1 := i5 a ha b hb
  have g2 := i6 a ha b hb
  simp only [initAt, keysKernel] at g1 g2
  have hfin : FiniteKernel (sad : List (F ℚ × F ℚ) → F ℚ) := sumOf_finite _
  have hdata : FiniteData s.left.img := fun x _ y _ _ => ⟨_, m4 hfl x y⟩
  have only : ∀ x y : ℚ, AskedPair ⟨.const 2, 0⟩ ⟨.const 0, 0⟩ 1 (0 + ((1 : Nat) : Int)) (0 + ((1 : Nat) : Int)) x y ↔ x = 2 ∧ y = 0 := by
    intro x y
    unfold AskedPair
    simp only [initAt, sub_zero, add_zero, Int.cast_ofNat, Int.cast_zero]
    constructor
    · rintro ⟨-, ⟨q1, q2⟩, q3, q4⟩
      exact ⟨le_antisymm q2 q1, le_antisymm q4 q3⟩
    · rintro ⟨rfl, rfl⟩
      exact ⟨⟨2, 0, by norm_num, by norm_num⟩, ⟨le_rfl, le_rfl⟩, le_rfl, le_rfl⟩
  have hcost : cost 2 0 ≠ .nan ↔ Comparable 1 s.left.img s.right.img a b 2 0 := by
    rw [hc, ← window_exists (ker := sad) (gmin := gmin) (gmax := gmax) hfin (by rw [m3]; simp) hdata
      (fun x _ y _ _ => ⟨_, m5 hfl x y⟩) (by omega)]
    have := slab_int (K := ℚ) zoomLinear s.right.img 1 2
    norm_num at this ⊢
    rw [this]
  refine ⟨s.files, _, s.outIs, ⟨z1, z2⟩, fun e hroi => ?_, fun e hroi => ?_⟩
  · subst e
    cases hR : s.roi with
    | none => exact absurd ((roiFor_none s.roiFor).1 hR) hroi
    | some R =>
      rw [hR] at i2
      obtain ⟨q1, q2, q3, q4, q5⟩ := i2
      obtain ⟨R0, q6, q7⟩ := s.region hR j1 j2
      have hno : ∀ x y, AskedPair ⟨.const 2, 0⟩ ⟨.const 0, 0⟩ 1 (0 + ((1 : Nat) : Int)) (0 + ((1 : Nat) : Int)) x y → cost x y = .nan := by
        intro x y hxy
        obtain ⟨rfl, rfl⟩ := (only x y).1 hxy
        by_contra hne
        have := (hcost.1 hne).inside
        simp only [getRoiProcessing, dispBounds, q6, Except.ok.injEq, Prod.mk.injEq] at q7
        have hd : R.margins.down = 2 := by rw [← q7.1]; rfl
        have hd' : R.margins.up = 2 := by rw [← q7.1]; rfl
        have := q1.row1
        have := q1.row0
        simp only [BothInside] at *
        omega
      obtain ⟨v1, v2, -⟩ := hb'.invalid hno
      obtain ⟨v3, -⟩ := hp.unusable (.inl v1)
      rw [v3, v1]
  · have hR := (roiFor_none s.roiFor).2 hroi
    rw [hR] at i2
    obtain ⟨q1, q2, q3, q4, -⟩ := i2
    have hy : cost 2 0 ≠ .nan := by
      refine hcost.2 ⟨?_, fun x y _ _ _ _ => by simp [Pandora.noDataAt, m1], by simp [Pandora.invalidAt, m1], fun x y _ _ _ _ => by rw [m5 hfl, m3]; simp⟩
      simp only [BothInside]
      omega
    obtain ⟨x, y, v1, v2, ⟨y', v3, -⟩, ⟨x', v4, -⟩, -⟩ := hb'.smallest ⟨2, 0, (only 2 0).2 ⟨rfl, rfl⟩, hy⟩
    obtain ⟨rfl, -⟩ := (only _ _).1 v3
    obtain ⟨-, rfl⟩ := (only _ _).1 v4
    obtain ⟨v5, -⟩ := hp.kept 2 0 v1 v2 (by rw [v1]; simp) (by rw [v2]; simp) (.inl (.inl (.inl (by rw [v1]; simp [initAt]))))
    rw [v5, v1]

/-- The full statement is false: with windows of three pixels and a displacement of two rows, the displaced window of the row 1 is not in what is
read for the region of the rows 0 and 1, and the pixel is invalid. In the full images it has a displacement. -/
theorem C133_false : ¬ C133Statement := by
  intro hst
  obtain ⟨p, mc, inp, f, cfg⟩ := exUserBox_cfg 1 (fun _ _ => .fin 0) (fun _ _ => .fin 0) 2 0 1
  obtain ⟨p', mc', inp', f', cfg'⟩ := exUserBoxFull_cfg 1 (fun _ _ => .fin 0) (fun _ _ => .fin 0) 2 0
  have ct := exWorldBox_contract 1 (fun _ _ => .fin 0) (fun _ _ => .fin 0)
  have h1 := exUserBox_runs 1 (fun _ _ => .fin 0) (fun _ _ => .fin 0) 2 0 1 (by decide) (by decide +kernel)
  have h2 := exUserBoxFull_runs 1 (fun _ _ => .fin 0) (fun _ _ => .fin 0) 2 0 (by decide +kernel)
  obtain ⟨files, rest, files', rest', full, fullR, left, left', roi, roi', o, o', im, -, -, key⟩ := hst
    (exWorldBox 1 (fun _ _ => .fin 0) (fun _ _ => .fin 0)) _ _ _ _ _ _ _ _ _ _ _ _ _ _ 6 6 _ _ _ _ _ _ _ _ _ _ _ _ _ _ _ _ _ (exUserBox_wf 2 0 1)
    (exUserBoxFull_wf 2 0) ct.disk (exWorldBox_crops 1 _ _) (exWorldBox_whole 1 _ _) ct.pandora ct.keeps rfl cfg cfg' (by decide) (by decide) h1 h2
  obtain ⟨rfl, rfl⟩ := exWorldBox_images _ _ _ _ _ im
  obtain ⟨fs, _, w1, ⟨w2, w3⟩, w4, -⟩ := exBox_pixel (fun _ _ => rfl) (exUserBox_wf 2 0 1) cfg (.inl rfl) h1
  obtain ⟨fs', _, w1', ⟨w2', w3'⟩, -, w4'⟩ := exBox_pixel (fun _ _ => rfl) (exUserBoxFull_wf 2 0) cfg' (.inr rfl) h2
  have e1 := o.symm.trans w1
  have e2 := o'.symm.trans w1'
  simp only [List.cons.injEq, Written.rasters.injEq] at e1 e2
  obtain ⟨rfl, -⟩ := e1
  obtain ⟨rfl, -⟩ := e2
  have v := (key (by simp [exImgSix, exLeftImg]) (sameExtent_const rfl _ _) (sameExtent_const rfl _ _) 1 1 1 1 w2 w3 w2' w3' rfl rfl).1
  rw [w4 rfl (by simp [exUserBox, dict, Fields.get]), w4' rfl (by simp [exUserBoxFull, dict, Fields.get])] at v
  exact absurd v (by simp)

end Verif.Props
