import Verif.Spec.InterpTiles
import Verif.Props.InterpLocal
import Verif.Props.RefinedTiles

/-!
# C144, C145: frames and regions with an interpolation
-/

namespace Verif.Props

open Verif Verif.Config Verif.Machine Verif.ImgTools Verif.MatchingCost Verif.Disparity Verif.Estimation Verif.Run Verif.Main Verif.Spec
  Verif.Save Verif.Statistics

set_option linter.unusedSectionVars false

variable {K : Type} [Field K] [LinearOrder K] [IsStrictOrderedRing K] [FloorRing K]

section
variable {me : Measure} {dRow dCol dRow' dCol' : Disp} {n : Nat} {r c r' c' fr lr fc lc : Int} {cost cost' : K → K → F K}
  {invalid r0 c0 s0 row col score r1 c1 s1 row' col' score' : F K} {e : Interpolation.IExt K} {ax ay ax' ay' : Arr1 K}

/-- Two pixels with the same intervals and the same costs. -/
theorem interp_moved (he : ReadsInside e) (hn : 0 < n) (fx : FullLattice ax (fc - 3) (lc + 3) n) (fy : FullLattice ay (fr - 3) (lr + 3) n)
    (fx' : FullLattice ax' (fc - 3) (lc + 3) n) (fy' : FullLattice ay' (fr - 3) (lr + 3) n)
    (ir : SameIntervalMoved dRow dRow' r c r' c') (ic : SameIntervalMoved dCol dCol' r c r' c')
    (hi : fr ≤ initAt dRow r c - dRow.range ∧ initAt dRow r c + dRow.range ≤ lr)
    (hc : ∀ x y : K, (∃ k : Int, x * (n : K) = (k : K)) → ((fr - 3 : Int) : K) ≤ x → x ≤ ((lr + 3 : Int) : K) → cost' x y = cost x y)
    (b : BestPair me (AskedPair dRow dCol n r c) cost invalid r0 c0 s0)
    (p : InterpPixel e me (fun x y => ReadDisp dRow fr lr r c x ∧ ReadDisp dCol fc lc r c y) cost ax ay r0 c0 row col score)
    (b' : BestPair me (AskedPair dRow' dCol' n r' c') cost' invalid r1 c1 s1)
    (p' : InterpPixel e me (fun x y => ReadDisp dRow' fr lr r' c' x ∧ ReadDisp dCol' fc lc r' c' y) cost' ax' ay' r1 c1 row' col' score') :
    row' = row ∧ col' = col ∧ score' = score := by
  obtain ⟨u1, u2⟩ := ir
  obtain ⟨v1, v2⟩ := ic
  have hask : ∀ x y : K, AskedPair dRow' dCol' n r' c' x y ↔ AskedPair dRow dCol n r c x y := fun x y => by
    unfold AskedPair
    rw [← u1, ← u2, ← v1, ← v2]
  have b2 : BestPair me (AskedPair dRow dCol n r c) cost invalid r1 c1 s1 := by
    refine best_congr (fun x y q => hc x y ?_ ?_ ?_) (best_asked hask b')
    · obtain ⟨⟨k, -, hk, -⟩, -⟩ := q
      exact ⟨k, hk⟩
    · exact le_trans (Int.cast_le.2 (by omega)) q.2.1.1
    · exact le_trans q.2.1.2 (Int.cast_le.2 (by omega))
  obtain ⟨rfl, rfl, -⟩ := BestPair.unique b b2
  refine interp_same he (lattice_same hn fx fx') (lattice_same hn fy fy') ⟨fx.pos, fy.pos⟩ (fun i hi j hj => ⟨?_, ?_⟩) p p'
  · unfold ReadDisp
    rw [← u1, ← u2, ← v1, ← v2]
  · refine hc _ _ (lattice_points hn fy hj) ?_ ?_
    · rw [← fy.first]
      by_cases h0 : j = 0
      · rw [h0]
      · exact (fy.increasing 0 j (by omega) hj).le
    · rw [← fy.last]
      by_cases h0 : j = ay.n - 1
      · rw [h0]
      · exact (fy.increasing j (ay.n - 1) (by omega) (by omega)).le

end

/-- C144: two images of the same scene, with different frames, give the same after an interpolation where they overlap. Two successful executions on
full images, possibly of different sizes, without estimation, with the same subpixel factor, window cost, invalid value and interpolation, whose
intervals have the same first and last disparities, whatever the steps. At a pixel of the first and a pixel of the second which have the same
intervals and see the same scene, within all the row disparities and its own column disparities widened by three, the three values are the same. -/
theorem C144_overlap_interpolation (w w' : World K) (user user' p p' mc mc' inp inp' l r l' r' f f' : Fields) (out out' : List (Written K))
    (H W H' W' : Nat) (dRow dCol dRow' dCol' : Disp) (sr sc sr' sc' : Nat) (invalid : F K) (n hw : Nat) (me : Measure) (ker : List (F K × F K) → F K)
    (wf : user.wf) (wf' : user'.wf)
    (hdisk : DiskContract w H W) (hpan : PandoraContract w) (hkeeps : PandoraKeeps w.pandora) (hzoom : w.run.zoom = zoomLinear)
    (hdisk' : DiskContract w' H' W') (hpan' : PandoraContract w') (hkeeps' : PandoraKeeps w'.pandora) (hzoom' : w'.run.zoom = zoomLinear)
    (hext : w'.run.interp = w.run.interp) (hb : BoundsContract w.run.interp) (he : ReadsInside w.run.interp)
    (cfg : Interpolated w user p mc inp l r f H W dRow dCol sr sc invalid n hw me ker)
    (cfg' : Interpolated w' user' p' mc' inp' l' r' f' H' W' dRow' dCol' sr' sc' invalid n hw me ker)
    (h : Main.main w user = (out, none)) (h' : Main.main w' user' = (out', none)) :
    ∃ files rest files' rest' left right left' right', ∃ fr lr : Int, out = .rasters files :: rest ∧ out' = .rasters files' :: rest' ∧
      ImagesRead w l r none left right ∧ ImagesRead w' l' r' none left' right' ∧ Extent dRow left fr lr ∧
      (∀ f ∈ [files.row, files.col, files.score], (∀ i, i < f.h ↔ i * sr < H) ∧ ∀ j, j < f.w ↔ j * sc < W) ∧
      (∀ f ∈ [files'.row, files'.col, files'.score], (∀ i, i < f.h ↔ i * sr' < H') ∧ ∀ j, j < f.w ↔ j * sc' < W') ∧
      (SameExtent dRow dRow' left left' → SameExtent dCol dCol' left left' →
        ∀ i j i' j' a b a' b' : Nat, a = i * sr → b = j * sc → a' = i' * sr' → b' = j' * sc' → a < H → b < W → a' < H' → b' < W' →
        SameIntervalMoved dRow dRow' a b a' b' → SameIntervalMoved dCol dCol' a b a' b' →
        SameScene hw left right left' right' a b a' b' (fr - 3) (lr + 3) (initAt dCol a b - dCol.range - 3) (initAt dCol a b + dCol.range + 3) →
        files'.row.values i' j' = files.row.values i j ∧ files'.col.values i' j' = files.col.values i j ∧
          files'.score.values i' j' = files.score.values i j) := by
  obtain ⟨s⟩ := interpolated_stages cfg wf hpan h
  obtain ⟨s'⟩ := interpolated_stages cfg' wf' hpan' h'
  obtain ⟨hn, im, ⟨sl, sr1⟩, o, z, ax, ay, fr, lr, fc, lc, gmin, gmax, ⟨x1, x2⟩, ⟨fy, fx⟩, hg, key⟩ := s.interpolated cfg wf hdisk hkeeps hb
  obtain ⟨-, im', ⟨sl', sr1'⟩, o', z', ax', ay', fr', lr', fc', lc', gmin', gmax', ⟨x1', x2'⟩, ⟨fy', fx'⟩, hg', key'⟩ :=
    s'.interpolated cfg' wf' hdisk' hkeeps' (by rw [hext]; exact hb)
  rw [hzoom] at key
  rw [hzoom', hext] at key'
  refine ⟨s.files, _, s'.files, _, s.left.img, s.right.img, s'.left.img, s'.right.img, fr, lr, s.outIs, s'.outIs, im, im', x1, z, z',
    fun t1 t2 i j i' j' a b a' b' ea eb ea' eb' ha hb ha' hb' ir ic scene => ?_⟩
  obtain ⟨rfl, rfl⟩ := t1 _ _ _ _ x1 x1'
  obtain ⟨rfl, rfl⟩ := t2 _ _ _ _ x2 x2'
  obtain ⟨r0, c0, s0, b1, p1⟩ := key i j a b ea eb ha hb
  obtain ⟨r1, c1, s1, b2, p2⟩ := key' i' j' a' b' ea' eb' ha' hb'
  obtain ⟨g1, g2⟩ := hg a ha b hb
  obtain ⟨g1', g2'⟩ := hg' a' ha' b' hb'
  have ea := x1.inside a (by omega) b (by omega)
  rw [o.1, o.2, zero_add, zero_add] at ea
  refine interp_moved he hn fx fy fx' fy' ir ic ea (fun x y hkx q1 q2 => ?_) b1 p1 b2 p2
  obtain ⟨v1, v2⟩ := ic
  by_cases hy : (gmin.get a b : K) ≤ y ∧ y ≤ (gmax.get a b : K)
  · refine window_scene scene (slab_displaced s.right.img n hn x hkx) (slab_displaced s'.right.img n hn x hkx) q1 q2 ?_ ?_ (by omega)
      (by omega) hy ⟨?_, ?_⟩
    · rw [← g1]; exact hy.1
    · rw [← g2]; exact hy.2
    · rw [g1', ← v1, ← g1]; exact hy.1
    · rw [g2', ← v2, ← g2]; exact hy.2
  · have t : ¬ Pandora.windowOk hw s.left.img (slabImg zoomLinear s.right.img n x) gmin gmax a b y := fun q => hy q.2.2.1
    have t' : ¬ Pandora.windowOk hw s'.left.img (slabImg zoomLinear s'.right.img n x) gmin' gmax' a' b' y := fun q => hy (by
      have := q.2.2.1
      rw [g1', g2', ← v1, ← v2, ← g1, ← g2] at this
      exact this)
    unfold Pandora.windowCost
    rw [if_neg t, if_neg t']

/-! ### Regions -/

section
variable {w : World K} {user p mc inp l r f : Fields} {H W : Nat} {dRow dCol : Disp} {rf rl cf cl : Int} {sr sc : Nat} {invalid : F K} {n hw : Nat}
  {me : Measure} {ker : List (F K × F K) → F K} {out : List (Written K)}

theorem interpZone_stages (cfg : InterpolatedZone w user p mc inp l r f H W dRow dCol rf rl cf cl sr sc invalid n hw me ker) (wf : user.wf)
    (hpan : PandoraContract w) (h : Main.main w user = (out, none)) : Nonempty (Stages w user p out) := by
  refine main_stages w user p out wf hpan cfg.pipeline ?_ h
  obtain ⟨pl, mc, disp, a1, a2, a3, -⟩ := cfg.asks.steps
  rw [cfg.pipeline, Option.some.injEq, J.obj.injEq] at a1
  subst a1
  exact (Fields.get_isSome _ _).1 (by rw [a3]; rfl)

/-- The pixels of an execution with an interpolation, on a region or on full images: those whose extended window is inside have the costs of the full
images. -/
theorem Stages.interpZoned (s : Stages w user p out)
    (cfg : InterpolatedZone w user p mc inp l r f H W dRow dCol rf rl cf cl sr sc invalid n hw me ker) (wf : user.wf)
    (hdisk : DiskContract w H W) (hcrop : CropsWhole w H W) (hkeeps : PandoraKeeps w.pandora) (hzoom : w.run.zoom = zoomLinear)
    (hb : BoundsContract w.run.interp)
    (hne : rl < H ∧ cl < W) {lj rj : J} {full fullR : Img K} (l1 : s.inp.get "left" = some lj)
    (l2 : s.inp.get "right" = some rj) (f1 : w.files.read lj none = .ok full) (f2 : w.files.read rj none = .ok fullR)
    (hnd : fullR.noData ≠ .nan) :
    0 < n ∧ ∃ (ax ay : Arr1 K) (fr lr fc lc : Int), ReadZone s.left.img s.roi H W rf rl cf cl ∧
      (Extent dRow s.left.img fr lr ∧ Extent dCol s.left.img fc lc) ∧
      (FullLattice ay (fr - 3) (lr + 3) n ∧ FullLattice ax (fc - 3) (lc + 3) n) ∧
      ∀ i < s.files.row.h, ∀ j < s.files.row.w, ∀ r c : Int, r = rf + (i : Int) * sr → c = cf + (j : Int) * sc →
        InsideExtended hw 3 3 rf rl cf cl r c →
        (fr ≤ initAt dRow r c - dRow.range ∧ initAt dRow r c + dRow.range ≤ lr) ∧
        ∃ r0 c0 s0, ∃ cost : K → K → F K,
        (∀ x y : K, (∃ k : Int, x * (n : K) = (k : K)) → ((fr - 3 : Int) : K) ≤ x → x ≤ ((lr + 3 : Int) : K) →
          cost x y = Pandora.windowCost hw ker full (slabImg zoomLinear fullR n x) (wholeGrid dCol (-dCol.range - 3) H W)
            (wholeGrid dCol (dCol.range + 3) H W) r.toNat c.toNat y) ∧
        BestPair me (AskedPair dRow dCol n r c) cost invalid r0 c0 s0 ∧
        InterpPixel w.run.interp me (fun x y => ReadDisp dRow fr lr r c x ∧ ReadDisp dCol fc lc r c y) cost ax ay r0 c0
          (s.files.row.values i j) (s.files.col.values i j) (s.files.score.values i j) := by
  obtain ⟨hn, dRow1, dCol1, ax, ay, fr, lr, fc, lc, gmin, gmax, -, i1, i2, i3, iz, i4, i4', i5, i6, i7⟩ :=
    s.interpWinner hdisk hkeeps wf cfg.pipeline cfg.asks.zone hne cfg.refinement cfg.method cfg.cost cfg.matcher hb
  obtain ⟨j1, j2⟩ := i1 cfg.noEstimation
  obtain ⟨⟨rfl, rfl⟩, ⟨rfl, rfl⟩, rfl⟩ := s.asked wf cfg.pipeline cfg.noEstimation cfg.asks j1 j2
  have icov : (Covers dRow s.left.img.row0 s.left.img.col0 s.left.img.h s.left.img.w ∧
      Covers dCol s.left.img.row0 s.left.img.col0 s.left.img.h s.left.img.w) ∧ 0 ≤ dRow.range ∧ 0 ≤ dCol.range := by
    obtain ⟨dR, dC, L, -, -, -, e1, e2, e3, e4, -, -, -, -, -, -, -, -, e8, -⟩ :=
      s.volumes hdisk (s.zone hdisk cfg.asks.zone hne).1 wf cfg.pipeline
    obtain ⟨g1, g2⟩ := e8 cfg.noEstimation
    obtain ⟨⟨rfl, rfl⟩, -⟩ := s.asked wf cfg.pipeline cfg.noEstimation cfg.asks g1 g2
    rw [e2] at e3 e4
    exact ⟨⟨e3, e4⟩, e1⟩
  obtain ⟨icov, rr⟩ := icov
  obtain ⟨-, -, lj', rj', l1', l2', l3, l4⟩ := created_input s.datasets
  rw [l1, Option.some.injEq] at l1'
  rw [l2, Option.some.injEq] at l2'
  subst l1' l2'
  obtain ⟨w1, w2, w3, w4⟩ := hdisk.whole _ _ f1
  obtain ⟨w1', w2', w3', w4'⟩ := hdisk.whole _ _ f2
  refine ⟨hn, ax, ay, fr, lr, fc, lc, i2, i4, i4', fun i hi j hj r c er ec hin => ?_⟩
  obtain ⟨r0, c0, s0, hb', hp, -⟩ := i7 i hi j hj r c er ec
  have p1 : (0 ≤ s.left.img.row0 ∧ 0 ≤ s.left.img.col0) ∧ (s.left.img.row0 ≤ r ∧ r < s.left.img.row0 + s.left.img.h) ∧
      s.left.img.col0 ≤ c ∧ c < s.left.img.col0 + s.left.img.w := by
    obtain ⟨⟨y1, y2⟩, y3, y4⟩ := hin
    cases hR : s.roi with
    | none =>
      rw [hR] at i2
      obtain ⟨q1, q2, q3, q4, q5⟩ := i2
      omega
    | some R =>
      rw [hR] at i2
      obtain ⟨q1, q2, q3, q4, q5⟩ := i2
      have := q1.rows
      have := q1.cols
      have := q1.row0
      have := q1.col0
      have := q1.row1
      have := q1.col1
      have := q1.margins
      omega
  obtain ⟨p1, p2, p3⟩ := p1
  obtain ⟨a, ea⟩ : ∃ a : Nat, r = s.left.img.row0 + a := ⟨(r - s.left.img.row0).toNat, by omega⟩
  obtain ⟨b, eb⟩ : ∃ b : Nat, c = s.left.img.col0 + b := ⟨(c - s.left.img.col0).toNat, by omega⟩
  have ha : a < s.left.img.h := by omega
  have hb : b < s.left.img.w := by omega
  have hext := i4.1.inside a ha b hb
  rw [← ea, ← eb] at hext
  refine ⟨hext, r0, c0, s0, _, fun x y hx u1 u2 => ?_, hb', hp⟩
  rw [hzoom]
  have ta : (r - s.left.img.row0).toNat = a := by omega
  have tb : (c - s.left.img.col0).toNat = b := by omega
  have ta' : r.toNat = a + s.left.img.row0.toNat := by omega
  have tb' : c.toNat = b + s.left.img.col0.toNat := by omega
  rw [ta, tb]
  have hg : gmin.get a b = (wholeGrid dCol (-dCol.range - 3) H W).get (a + s.left.img.row0.toNat) (b + s.left.img.col0.toNat) ∧
      gmax.get a b = (wholeGrid dCol (dCol.range + 3) H W).get (a + s.left.img.row0.toNat) (b + s.left.img.col0.toNat) := by
    rw [i5 a ha b hb, i6 a ha b hb]
    simp only [wholeGrid]
    push_cast
    rw [Int.toNat_of_nonneg p1.1, Int.toNat_of_nonneg p1.2, add_comm (a : Int), add_comm (b : Int)]
    exact ⟨rfl, rfl⟩
  cases hR : s.roi with
  | none =>
    rw [hR] at l3 l4 i2
    obtain ⟨q1, q2, -⟩ := i2
    rw [f1, Except.ok.injEq] at l3
    rw [f2, Except.ok.injEq] at l4
    rw [ta', tb', q1, q2, ← l3, ← l4, Int.toNat_zero, add_zero, add_zero]
    rw [q1, q2, Int.toNat_zero, add_zero, add_zero] at hg
    by_cases hf : FitsIn hw full fullR a b x y
    · exact (crop_cost (CropOf.self full) (CropOf.self fullR) hn hx hnd hg).1 hf
    · rw [(crop_cost (CropOf.self full) (CropOf.self fullR) hn hx hnd hg).2 hf]
      exact ((crop_cost (CropOf.self full) (CropOf.self fullR) hn hx hnd ⟨rfl, rfl⟩).2 hf).symm
  | some R =>
    rw [hR] at l3 l4 i2
    obtain ⟨q1, q2, q3, q4, q5⟩ := i2
    obtain ⟨R0, -, q6⟩ := s.region hR j1 j2
    have kR : CropOk s.right.img R H W := hdisk.crop _ _ _ l4 q1.rows q1.cols q1.margins
    have hcl := hcrop _ _ _ _ f1 l3 q1
    have hcr := hcrop _ _ _ _ f2 l4 kR
    rw [show s.right.img.row0 = s.left.img.row0 by rw [kR.row0, q1.row0], show s.right.img.col0 = s.left.img.col0 by rw [kR.col0, q1.col0]] at hcr
    rw [ta', tb']
    by_cases hf : FitsIn hw s.left.img s.right.img a b x y
    · exact (crop_cost hcl hcr hn hx hnd hg).1 hf
    · rw [(crop_cost hcl hcr hn hx hnd hg).2 hf]
      by_contra hne'
      have hy : ((initAt dCol r c - dCol.range - 3 : Int) : K) ≤ y ∧ y ≤ ((initAt dCol r c + dCol.range + 3 : Int) : K) := by
        by_contra hq
        refine hne' ?_
        unfold Pandora.windowCost
        rw [if_neg]
        intro q
        refine hq ?_
        have := q.2.2.1
        rw [← hg.1, ← hg.2, i5 a ha b hb, i6 a ha b hb, ← ea, ← eb] at this
        obtain ⟨t1, t2⟩ := this
        exact ⟨le_trans (Int.cast_le.2 (by omega)) t1, le_trans t2 (Int.cast_le.2 (by omega))⟩
      obtain ⟨u3, u4⟩ := hy
      have b0 := cost_fits hn hx hnd (by rw [w3, w3']) (by rw [w4, w4']) ⟨w1, w2⟩ (Ne.symm hne')
      rw [show ((a + s.left.img.row0.toNat : Nat) : Int) = r by omega, show ((b + s.left.img.col0.toNat : Nat) : Int) = c by omega] at b0
      obtain ⟨⟨b1, b2, b3, b4⟩, b5, b6, b7, b8⟩ := b0
      obtain ⟨⟨t1, t2, t3, t4, -⟩, -, c1, c2⟩ := C18_margins_cover_disparities R0 dCol dRow R R q6
      obtain ⟨⟨x1, x2⟩, x3, x4⟩ := hin
      have v1 : fr - 3 ≤ ⌊x⌋ := Int.le_floor.2 u1
      have v2 : ⌈x⌉ ≤ lr + 3 := Int.ceil_le.2 u2
      have v3 : initAt dCol r c - dCol.range - 3 ≤ ⌊y⌋ := Int.le_floor.2 u3
      have v4 : ⌈y⌉ ≤ initAt dCol r c + dCol.range + 3 := Int.ceil_le.2 u4
      obtain ⟨g1, hg1, g2, hg2, eg⟩ := i4.1.reached
      obtain ⟨g3, hg3, g4, hg4, eg'⟩ := i4.1.reached'
      obtain ⟨d1, d2⟩ := asked_range_at icov.1 (r := s.left.img.row0 + g1) (c := s.left.img.col0 + g2) (by omega) (by omega)
        (x := ((fr : Int) : K)) ⟨Int.cast_le.2 (by omega), Int.cast_le.2 (by omega)⟩
      obtain ⟨d5, d6⟩ := asked_range_at icov.1 (r := s.left.img.row0 + g3) (c := s.left.img.col0 + g4) (by omega) (by omega)
        (x := ((lr : Int) : K)) ⟨Int.cast_le.2 (by omega), Int.cast_le.2 (by omega)⟩
      obtain ⟨d3, d4⟩ := asked_range_at icov.2 (r := r) (c := c) (by omega) (by omega)
        (x := ((initAt dCol r c - dCol.range : Int) : K)) ⟨le_rfl, Int.cast_le.2 (by omega)⟩
      obtain ⟨d7, d8⟩ := asked_range_at icov.2 (r := r) (c := c) (by omega) (by omega)
        (x := ((initAt dCol r c + dCol.range : Int) : K)) ⟨Int.cast_le.2 (by omega), le_rfl⟩
      rw [Int.floor_intCast] at d1 d3
      rw [Int.ceil_intCast] at d6 d8
      have m1 := (c2 (r - hw - 3) _ (by omega) (by omega) d1).1
      have m2 := (c2 (r + hw + 3) _ (by omega) (by omega) d6).2
      have m3 := (c1 (c - hw - 3) _ (by omega) (by omega) d3).1
      have m4 := (c1 (c + hw + 3) _ (by omega) (by omega) d8).2
      have z1 := q1.row0
      have z2 := q1.col0
      have z3 := q1.row1
      have z4 := q1.col1
      have z5 := q1.margins
      rw [fitsIn_zone i3.1 i3.2 ea eb] at hf
      refine hf ⟨⟨?_, ?_, ?_, ?_⟩, ?_, ?_, ?_, ?_⟩ <;> omega

end

/-- C145 (partial): two executions with an interpolation on two zones of the same images, regions of interest or the full images, give the same values
at the pixels they share, without estimation, with the same subpixel factor, window cost, intervals and invalid value, whatever the steps, when the
intervals of the pixels read by both have the same first and last disparities. Proved at the pixels whose window extended by three is inside both
zones. Missing: the pixels nearer to the border of one of the zones (`C145_false`). -/
theorem C145_zones_agree_interpolation_partial (w : World K) (user user' p p' mc mc' inp inp' l r f f' : Fields) (out out' : List (Written K))
    (H W : Nat) (dRow dCol : Disp) (rf rl cf cl rf' rl' cf' cl' : Int) (sr sc sr' sc' : Nat) (invalid : F K) (n hw : Nat) (me : Measure)
    (ker : List (F K × F K) → F K) (wf : user.wf) (wf' : user'.wf)
    (hdisk : DiskContract w H W) (hcrop : CropsWhole w H W) (hwhole : WholeReadable w) (hpan : PandoraContract w)
    (hkeeps : PandoraKeeps w.pandora) (hzoom : w.run.zoom = zoomLinear) (hb : BoundsContract w.run.interp) (he : ReadsInside w.run.interp)
    (cfg : InterpolatedZone w user p mc inp l r f H W dRow dCol rf rl cf cl sr sc invalid n hw me ker)
    (cfg' : InterpolatedZone w user' p' mc' inp' l r f' H W dRow dCol rf' rl' cf' cl' sr' sc' invalid n hw me ker)
    (hne : rl < H ∧ cl < W) (hne' : rl' < H ∧ cl' < W)
    (h : Main.main w user = (out, none)) (h' : Main.main w user' = (out', none)) :
    ∃ (files : Files K (F K)) (rest : List (Written K)) (files' : Files K (F K)) (rest' : List (Written K)) (full fullR left left' : Img K)
      (roi roi' : Option Roi), out = .rasters files :: rest ∧ out' = .rasters files' :: rest' ∧
      ImagesRead w l r none full fullR ∧ ReadZone left roi H W rf rl cf cl ∧ ReadZone left' roi' H W rf' rl' cf' cl' ∧
      (∀ f ∈ [files.row, files.col, files.score],
        (∀ i : Nat, i < f.h ↔ rf + (i : Int) * sr ≤ rl) ∧ ∀ j : Nat, j < f.w ↔ cf + (j : Int) * sc ≤ cl) ∧
      (∀ f ∈ [files'.row, files'.col, files'.score],
        (∀ i : Nat, i < f.h ↔ rf' + (i : Int) * sr' ≤ rl') ∧ ∀ j : Nat, j < f.w ↔ cf' + (j : Int) * sc' ≤ cl') ∧
      (fullR.noData ≠ .nan → SameExtent dRow dRow left left' → SameExtent dCol dCol left left' →
        ∀ i j i' j', i < files.row.h → j < files.row.w → i' < files'.row.h → j' < files'.row.w →
        rf + (i : Int) * sr = rf' + (i' : Int) * sr' → cf + (j : Int) * sc = cf' + (j' : Int) * sc' →
        InsideExtended hw 3 3 rf rl cf cl (rf + (i : Int) * sr) (cf + (j : Int) * sc) →
        InsideExtended hw 3 3 rf' rl' cf' cl' (rf + (i : Int) * sr) (cf + (j : Int) * sc) →
        files'.row.values i' j' = files.row.values i j ∧ files'.col.values i' j' = files.col.values i j ∧
          files'.score.values i' j' = files.score.values i j) := by
  obtain ⟨s⟩ := interpZone_stages cfg wf hpan h
  obtain ⟨s'⟩ := interpZone_stages cfg' wf' hpan h'
  obtain ⟨-, -, lj, rj, l1, l2, l3, l4⟩ := created_input s.datasets
  have hfull : ∀ {v : J} {img : Img K}, w.files.read v s.roi = .ok img → ∃ full, w.files.read v none = .ok full := by
    intro v img hv
    cases hR : s.roi with
    | none => exact ⟨img, by rw [← hv, hR]⟩
    | some R =>
      rw [hR] at hv
      exact hwhole _ _ _ hv
  obtain ⟨full, f1⟩ := hfull l3
  obtain ⟨fullR, f2⟩ := hfull l4
  have l1' := l1
  have l2' := l2
  rw [s.same_side s' wf wf' cfg.noEstimation cfg'.noEstimation cfg.input cfg'.input cfg.left cfg'.left] at l1'
  rw [s.same_side s' wf wf' cfg.noEstimation cfg'.noEstimation cfg.input cfg'.input cfg.right cfg'.right] at l2'
  have size : ∀ {user p mc inp f : Fields} {out : List (Written K)} {rf rl cf cl : Int} {sr sc : Nat} (s : Stages w user p out), user.wf →
      InterpolatedZone w user p mc inp l r f H W dRow dCol rf rl cf cl sr sc invalid n hw me ker → rl < H ∧ cl < W →
      ReadZone s.left.img s.roi H W rf rl cf cl ∧ ∀ f ∈ [s.files.row, s.files.col, s.files.score],
        (∀ i : Nat, i < f.h ↔ rf + (i : Int) * sr ≤ rl) ∧ ∀ j : Nat, j < f.w ↔ cf + (j : Int) * sc ≤ cl := by
    intro user p mc inp f out rf rl cf cl sr sc s wf cfg hne
    obtain ⟨-, _, _, _, _, _, _, _, _, _, _, -, i1, z2, -, z, -⟩ :=
      s.interpWinner hdisk hkeeps wf cfg.pipeline cfg.asks.zone hne cfg.refinement cfg.method cfg.cost cfg.matcher hb
    obtain ⟨j1, j2⟩ := i1 cfg.noEstimation
    obtain ⟨-, ⟨rfl, rfl⟩, -⟩ := s.asked wf cfg.pipeline cfg.noEstimation cfg.asks j1 j2
    exact ⟨z2, fun f hf => ⟨(z f hf).rows, (z f hf).cols⟩⟩
  obtain ⟨z2, z⟩ := size s wf cfg hne
  obtain ⟨z2', z'⟩ := size s' wf' cfg' hne'
  refine ⟨s.files, _, s'.files, _, full, fullR, s.left.img, s'.left.img, s.roi, s'.roi, s.outIs, s'.outIs, ?_, z2, z2', z, z',
    fun hnd t1 t2 i j i' j' hi hj hi' hj' e1 e2 n1 n2 => ?_⟩
  · obtain ⟨lj', rj', g1, g2, g3, g4⟩ := s.sections wf cfg.input cfg.left cfg.right
    rw [l1, Option.some.injEq] at g1
    rw [l2, Option.some.injEq] at g2
    subst g1 g2
    exact ⟨lj', rj', g3, g4, f1, f2⟩
  · obtain ⟨hn, ax, ay, fr, lr, fc, lc, -, ⟨x1, x2⟩, ⟨fy, fx⟩, key⟩ := s.interpZoned cfg wf hdisk hcrop hkeeps hzoom hb hne l1 l2 f1 f2 hnd
    obtain ⟨-, ax', ay', fr', lr', fc', lc', -, ⟨x1', x2'⟩, ⟨fy', fx'⟩, key'⟩ :=
      s'.interpZoned cfg' wf' hdisk hcrop hkeeps hzoom hb hne' l1' l2' f1 f2 hnd
    obtain ⟨rfl, rfl⟩ := t1 _ _ _ _ x1 x1'
    obtain ⟨rfl, rfl⟩ := t2 _ _ _ _ x2 x2'
    obtain ⟨hin, r0, c0, s0, cost, c1, b1, p1⟩ := key i hi j hj _ _ rfl rfl n1
    obtain ⟨-, r1, c1', s1, cost', c2, b2, p2⟩ := key' i' hi' j' hj' _ _ e1 e2 n2
    exact interp_moved he hn fx fy fx' fy' ⟨rfl, rfl⟩ ⟨rfl, rfl⟩ hin (fun x y q u v => (c2 x y q u v).trans (c1 x y q u v).symm) b1 p1 b2 p2

/-! ## Examples -/

/-- An interpolation on full images, with steps of one. -/
abbrev exUserRowsI : Fields := exUserWhole 1 1 (some exInterp) (some (.int 0))

theorem exUserRowsI_wf : exUserRowsI.wf := by
  simp [exUserRowsI, exUserWhole, exInput, exPipeline, exInterp, dict, Fields.append, Fields.wf, J.wf, Fields.keys]

/-- The frames of C116 with an interpolation. -/
theorem exRowsI_runs (rows : Nat) (hr : rows = 6 ∨ rows = 7) (fl fr : Nat → Nat → F ℚ) :
    Main.main (exWorldRows rows fl fr) exUserRowsI = ((Main.main (exWorldRows rows fl fr) exUserRowsI).1, none) := by
  have : (Main.main (exWorldRows rows fl fr) exUserRowsI).2 = none := by
    obtain ⟨m, cfg, h⟩ := accepted_ok (w := exWorldQr rows) (user := exUserRowsI) (by rcases hr with rfl | rfl <;> decide +kernel)
    refine C81_accepted_runs_partial (exWorldRows rows fl fr) _ _ _ cfg m rows 3 0 ((rows : Int) - 1) 0 2 1 1 exUserRowsI_wf
      (exWorldRows_contract rows (by omega) fl fr) rfl (by decide) rfl
      (.inl ⟨_, _, rfl, .inl rfl, .inl rfl⟩) (.inr ⟨rfl, rfl, rfl, rfl, rfl⟩) (by omega) ?_ ?_ (.inl ⟨rfl, rfl⟩) h
    · intro he
      exact absurd rfl he
    · intro v hv
      have : v = exInterp := (Option.some.inj hv).symm
      subst this
      exact ⟨_, rfl, .inl rfl⟩
  exact Prod.ext rfl this

theorem exRowsI_cfg (rows : Nat) (fl fr : Nat → Nat → F ℚ) :
    ∃ p mc inp f, Interpolated (exWorldRows rows fl fr) exUserRowsI p mc inp exL exR f rows 3 ⟨.const 0, 1⟩ ⟨.const 0, 1⟩ 1 1 .nan 1 0 .min sad :=
  ⟨_, _, _, _, rfl, rfl, rfl, rfl, rfl, rfl, rfl, rfl, rfl,
    ⟨_, _, _, _, _, .int 1, rfl, rfl, rfl, .inl rfl, rfl, rfl⟩,
    ⟨⟨_, rfl, ⟨_, _, _, rfl, rfl, rfl, .inl rfl, .inl ⟨_, .inl rfl, rfl⟩⟩, ⟨_, _, _, rfl, rfl, rfl, .inl rfl, .inl ⟨_, .inl rfl, rfl⟩⟩⟩,
    .inr ⟨rfl, rfl, rfl, rfl, rfl⟩,
    ⟨_, _, _, rfl, rfl, rfl, .inl ⟨_, _, rfl, .inl rfl, .inl rfl⟩, .inl ⟨_, rfl, .inr (.inr (.inl ⟨rfl, rfl⟩))⟩⟩⟩⟩

/-- The extent of a constant interval. -/
theorem extent_const {i k : Int} {img : Img K} {first last : Int} (h : Extent ⟨.const i, k⟩ img first last) : first = i - k ∧ last = i + k := by
  obtain ⟨-, ⟨_, _, _, _, h1⟩, _, _, _, _, h2⟩ := h
  exact ⟨h1.symm, h2.symm⟩

/-- Images of a scene of six rows, and images of the same scene with one more row above: the last rows give the same after an interpolation. -/
example (fl fr : Nat → Nat → F ℚ) : ∃ files rest files' rest',
    Main.main (exWorldRows 6 (fun x y => fl (x + 1) y) (fun x y => fr (x + 1) y)) exUserRowsI = (.rasters files :: rest, none) ∧
    Main.main (exWorldRows 7 fl fr) exUserRowsI = (.rasters files' :: rest', none) ∧
    ∀ j < 3, files'.row.values 6 j = files.row.values 5 j ∧ files'.col.values 6 j = files.col.values 5 j ∧
      files'.score.values 6 j = files.score.values 5 j := by
  obtain ⟨_, _, _, _, cfg⟩ := exRowsI_cfg 6 (fun x y => fl (x + 1) y) (fun x y => fr (x + 1) y)
  obtain ⟨_, _, _, _, cfg'⟩ := exRowsI_cfg 7 fl fr
  have ct := exWorldRows_contract 6 (by decide) (fun x y => fl (x + 1) y) (fun x y => fr (x + 1) y)
  have ct' := exWorldRows_contract 7 (by decide) fl fr
  have h1 := exRowsI_runs 6 (.inl rfl) (fun x y => fl (x + 1) y) (fun x y => fr (x + 1) y)
  have h2 := exRowsI_runs 7 (.inr rfl) fl fr
  obtain ⟨files, rest, files', rest', left, right, left', right', f0, l0, o, o', im, im', x0, z, z', key⟩ := C144_overlap_interpolation
    _ _ _ _ _ _ _ _ _ _ _ _ _ _ _ _ _ _ 6 3 7 3 _ _ _ _ _ _ _ _ .nan 1 0 .min sad exUserRowsI_wf exUserRowsI_wf ct.disk ct.pandora ct.keeps rfl
    ct'.disk ct'.pandora ct'.keeps rfl rfl exI_bounds exI_reads cfg cfg' h1 h2
  obtain ⟨rfl, rfl⟩ := exWorldRows_images _ _ _ _ _ im
  obtain ⟨rfl, rfl⟩ := exWorldRows_images _ _ _ _ _ im'
  obtain ⟨rfl, rfl⟩ := extent_const x0
  refine ⟨files, rest, files', rest', by rw [h1]; exact congrArg (·, none) o, by rw [h2]; exact congrArg (·, none) o', fun j hj => ?_⟩
  refine key (sameExtent_const rfl _ _) (sameExtent_const rfl _ _) 5 j 6 j 5 j 6 j rfl (by omega) rfl (by omega) (by decide) hj (by decide) hj
    ⟨rfl, rfl⟩ ⟨rfl, rfl⟩ ⟨rfl, ⟨fun x hx y hy => ?_, rfl⟩, ?_, fun x h1 h2 => ?_, fun y h1 h2 => ?_, fun x y h1 h2 _ _ _ _ _ _ => ?_⟩
  · obtain rfl : x = 0 := by omega
    exact ⟨rfl, rfl⟩
  · simp [exImgRows, exLeftImg]
  · simp only [initAt, exImgRows] at *
    omega
  · simp [exImgRows, exLeftImg]
  · simp only [initAt, exImgRows] at *
    rw [show (((6 : Nat) : Int) + x).toNat = (((5 : Nat) : Int) + x).toNat + 1 by omega]

/-! ### Regions of images of eight rows and eight columns -/

/-- Images of eight rows and eight columns; the margins are those of an interpolation and of windows of one pixel. -/
def exWorldEight : World ℚ :=
  { exWorldOf 0 8 with
    env := ⟨false, fun v => isStr v || decide (v = .null), isStr, fun _ => .ok ⟨1, 8, 8, some 1⟩, fun _ => none, fun _ => .ok (8, 8)⟩
    globalMargins := fun _ _ => ⟨3, 3, 3, 3⟩ }

/-- The image which holds `f`. -/
def exImgEight (f : Nat → Nat → F ℚ) : Img ℚ := { exLeftImg with h := 8, w := 8, im := f }

/-- Windows of one pixel compared by `sad`. -/
noncomputable def exWorldBoxI (fl fr : Nat → Nat → F ℚ) : World ℚ :=
  { exWorldEight with
    cost := fun _ => Pandora.windowCost 0 sad
    files := ⟨fun v roi =>
      let img := if isLeftSection v then exImgEight fl else exImgEight fr
      match roi with
      | none => .ok img
      | some R => .ok (cropImg img R), fun _ => ⟨8, 8, fun _ _ => 0⟩⟩ }

theorem exWorldBoxI_contract (fl fr : Nat → Nat → F ℚ) : RunContract (exWorldBoxI fl fr) 8 8 := by
  obtain ⟨-, ⟨p, -⟩, k, r, a, o, i, s⟩ := exWorldOf_contract 0 8 (by decide)
  refine ⟨⟨⟨by decide, by decide⟩, ?_, ?_, ?_, ?_⟩, ⟨p, fun _ => windowCost_contract 0 sad sad_finite⟩, k, ?_, fun _ _ _ _ => rfl, o, i, s⟩
  · intro s g h
    simp only [exWorldBoxI, exWorldEight, Except.ok.injEq] at h
    subst h
    exact ⟨rfl, rfl⟩
  · intro v s h
    simp only [exWorldBoxI, exWorldEight, Except.ok.injEq] at h
    exact h.symm
  · intro v img h
    simp only [exWorldBoxI, Except.ok.injEq] at h
    subst h
    split_ifs <;> exact ⟨rfl, rfl, rfl, rfl⟩
  · intro v R img h h1 h2 h3
    simp only [exWorldBoxI, Except.ok.injEq] at h
    subst h
    have key : ∀ i : Img ℚ, i.h = 8 → i.w = 8 → CropOk (cropImg i R) R 8 8 := by
      intro i hi hi'
      refine ⟨h1, h2, h3, rfl, rfl, ?_, ?_⟩
      · simp only [cropImg, hi]; push_cast at *; omega
      · simp only [cropImg, hi']; push_cast at *; omega
    split_ifs
    · exact key _ rfl rfl
    · exact key _ rfl rfl
  · intro inp l r _ _ _ roi _
    cases roi with
    | none => exact ⟨_, _, rfl, rfl⟩
    | some R => exact ⟨_, _, rfl, rfl⟩

theorem exWorldBoxI_crops (fl fr : Nat → Nat → F ℚ) : CropsWhole (exWorldBoxI fl fr) 8 8 := by
  intro v R full crop h1 h2 h3
  simp only [exWorldBoxI, Except.ok.injEq] at h1 h2
  subst h1 h2
  refine cropImg_of _ _ _ _ ?_ ?_ ?_ ?_ ?_ h3 <;> split_ifs <;> rfl

theorem exWorldBoxI_whole (fl fr : Nat → Nat → F ℚ) : WholeReadable (exWorldBoxI fl fr) := fun _ _ _ _ => ⟨_, rfl⟩

/-- The rows `0` to `b` with an interpolation. -/
def exUserInterpBox (i k b : Int) : Fields := dict [("input", .obj (exInputBox i k)),
  ("ROI", .obj (dict [("row", .obj (dict [("first", .int 0), ("last", .int b)])), ("col", .obj (dict [("first", .int 0), ("last", .int 7)]))])),
  ("pipeline", .obj (exPipeline none 1 1 (some exInterp)))]

/-- The full images with an interpolation. -/
def exUserInterpFull (i k : Int) : Fields := dict [("input", .obj (exInputBox i k)), ("pipeline", .obj (exPipeline none 1 1 (some exInterp)))]

theorem exUserInterpBox_wf (i k b : Int) : (exUserInterpBox i k b).wf := by
  simp [exUserInterpBox, exInputBox, exL, exR, exPipeline, exInterp, dict, Fields.append, Fields.wf, J.wf, Fields.keys]

theorem exUserInterpFull_wf (i k : Int) : (exUserInterpFull i k).wf := by
  simp [exUserInterpFull, exInputBox, exL, exR, exPipeline, exInterp, dict, Fields.append, Fields.wf, J.wf, Fields.keys]

theorem exUserInterpBox_zone (i k b : Int) : ZoneIs (exUserInterpBox i k b) 8 8 0 b 0 7 :=
  .inl ⟨_, rfl, _, _, _, _, _, _, _, rfl, rfl, rfl, rfl, rfl, rfl, rfl, .inl rfl, .inl rfl, .inl rfl, .inl rfl⟩

theorem exUserInterpBox_cfg (fl fr : Nat → Nat → F ℚ) (i k b : Int) :
    ∃ p mc inp f, InterpolatedZone (exWorldBoxI fl fr) (exUserInterpBox i k b) p mc inp exL exR f 8 8 ⟨.const i, k⟩ ⟨.const 0, k⟩ 0 b 0 7 1 1 .nan 1 0
      .min sad :=
  ⟨_, _, _, _, rfl, rfl, rfl, rfl, rfl, rfl, rfl, rfl,
    ⟨_, _, _, _, _, .int 1, rfl, rfl, rfl, .inl rfl, rfl, rfl⟩,
    ⟨⟨_, rfl, ⟨_, _, _, rfl, rfl, rfl, .inl rfl, .inl ⟨_, .inl rfl, rfl⟩⟩, ⟨_, _, _, rfl, rfl, rfl, .inl rfl, .inl ⟨_, .inl rfl, rfl⟩⟩⟩,
    exUserInterpBox_zone _ _ _,
    ⟨_, _, _, rfl, rfl, rfl, .inl ⟨_, _, rfl, .inl rfl, .inl rfl⟩, .inl ⟨_, rfl, .inr (.inr (.inl ⟨rfl, rfl⟩))⟩⟩⟩⟩

theorem exUserInterpFull_cfg (fl fr : Nat → Nat → F ℚ) (i k : Int) :
    ∃ p mc inp f, InterpolatedZone (exWorldBoxI fl fr) (exUserInterpFull i k) p mc inp exL exR f 8 8 ⟨.const i, k⟩ ⟨.const 0, k⟩ 0 7 0 7 1 1 .nan 1 0
      .min sad :=
  ⟨_, _, _, _, rfl, rfl, rfl, rfl, rfl, rfl, rfl, rfl,
    ⟨_, _, _, _, _, .int 1, rfl, rfl, rfl, .inl rfl, rfl, rfl⟩,
    ⟨⟨_, rfl, ⟨_, _, _, rfl, rfl, rfl, .inl rfl, .inl ⟨_, .inl rfl, rfl⟩⟩, ⟨_, _, _, rfl, rfl, rfl, .inl rfl, .inl ⟨_, .inl rfl, rfl⟩⟩⟩,
    .inr ⟨rfl, rfl, rfl, rfl, rfl⟩,
    ⟨_, _, _, rfl, rfl, rfl, .inl ⟨_, _, rfl, .inl rfl, .inl rfl⟩, .inl ⟨_, rfl, .inr (.inr (.inl ⟨rfl, rfl⟩))⟩⟩⟩⟩

theorem exInterpZone_runs {user : Fields} {b : Int} {mc : Fields} (fl fr : Nat → Nat → F ℚ) (wf : user.wf) (hb : 0 < b ∧ b < 8)
    (hp : user.get "pipeline" = some (.obj (exPipeline none 1 1 (some exInterp))))
    (hmc : (exPipeline none 1 1 (some exInterp)).get "matching_cost" = some (.obj mc)) (hst : StepIs mc 1 1)
    (hz : ZoneIs user 8 8 0 b 0 7) (hacc : accepted exWorldEight user = true) :
    Main.main (exWorldBoxI fl fr) user = ((Main.main (exWorldBoxI fl fr) user).1, none) := by
  have : (Main.main (exWorldBoxI fl fr) user).2 = none := by
    obtain ⟨m, cfg, h⟩ := accepted_ok hacc
    refine C81_accepted_runs_partial (exWorldBoxI fl fr) user _ mc cfg m 8 8 0 b 0 7 1 1 wf
      (exWorldBoxI_contract fl fr) hp (by decide) hmc hst hz (by omega) ?_ ?_ (.inl ⟨rfl, rfl⟩) h
    · intro he
      exact absurd rfl he
    · intro v hv
      have : v = exInterp := (Option.some.inj hv).symm
      subst this
      exact ⟨_, rfl, .inl rfl⟩
  exact Prod.ext rfl this

theorem exUserInterpBox_runs (fl fr : Nat → Nat → F ℚ) (i k b : Int) (hb : 0 < b ∧ b < 8)
    (hacc : accepted exWorldEight (exUserInterpBox i k b) = true) :
    Main.main (exWorldBoxI fl fr) (exUserInterpBox i k b) = ((Main.main (exWorldBoxI fl fr) (exUserInterpBox i k b)).1, none) :=
  exInterpZone_runs fl fr (exUserInterpBox_wf i k b) hb rfl rfl (.inl ⟨_, _, rfl, .inl rfl, .inl rfl⟩) (exUserInterpBox_zone i k b) hacc

theorem exUserInterpFull_runs (fl fr : Nat → Nat → F ℚ) (i k : Int) (hacc : accepted exWorldEight (exUserInterpFull i k) = true) :
    Main.main (exWorldBoxI fl fr) (exUserInterpFull i k) = ((Main.main (exWorldBoxI fl fr) (exUserInterpFull i k)).1, none) :=
  exInterpZone_runs fl fr (exUserInterpFull_wf i k) (b := 7) (by decide) rfl rfl (.inl ⟨_, _, rfl, .inl rfl, .inl rfl⟩)
    (.inr ⟨rfl, rfl, rfl, rfl, rfl⟩) hacc

/-- What the images of the example hold. -/
theorem exBoxI_images (fl fr : Nat → Nat → F ℚ) (roi : Option Roi) (left right : Img ℚ)
    (h : ImagesRead (exWorldBoxI fl fr) exL exR roi left right) :
    (left.msk = none ∧ right.msk = none ∧ right.noData = .fin (-1)) ∧ ((∀ x y, fl x y = .fin 0) → ∀ x y, left.im x y = .fin 0) ∧
      (right.row0 = left.row0 ∧ right.col0 = left.col0) ∧ (right.row0 = 0 → right.col0 = 0 → ∀ x y, right.im x y = fr x y) := by
  obtain ⟨lj, rj, k1, k2, h1, h2⟩ := h
  have g1 := k1 "img" _ rfl rfl
  have g2 := k2 "img" _ rfl rfl
  simp only [exWorldBoxI] at h1 h2
  have e1 : isLeftSection (.obj lj) = true := by simp [isLeftSection, g1, readValue]
  have e2 : isLeftSection (.obj rj) = false := by simp [isLeftSection, g2, readValue]
  rw [e1, if_pos rfl] at h1
  rw [e2, if_neg (by decide)] at h2
  cases roi with
  | none =>
    simp only [Except.ok.injEq] at h1 h2
    subst h1 h2
    exact ⟨⟨rfl, rfl, rfl⟩, fun h x y => h x y, ⟨rfl, rfl⟩, fun _ _ x y => rfl⟩
  | some R =>
    simp only [Except.ok.injEq] at h1 h2
    subst h1 h2
    refine ⟨⟨rfl, rfl, rfl⟩, fun h x y => h _ _, ⟨rfl, rfl⟩, fun r0 c0 x y => ?_⟩
    simp only [cropImg] at r0 c0 ⊢
    rw [r0, c0]
    rfl

/-- The rows 0 to 6 against the full images: the pixel of row 3 and of column 3 or 4 is the same, whatever the images. -/
example (fl fr : Nat → Nat → F ℚ) : ∃ files rest files' rest',
    Main.main (exWorldBoxI fl fr) (exUserInterpBox 0 1 6) = (.rasters files :: rest, none) ∧
    Main.main (exWorldBoxI fl fr) (exUserInterpFull 0 1) = (.rasters files' :: rest', none) ∧
    ∀ j : Nat, 3 ≤ j → j ≤ 4 → files'.row.values 3 j = files.row.values 3 j ∧ files'.col.values 3 j = files.col.values 3 j ∧
      files'.score.values 3 j = files.score.values 3 j := by
  obtain ⟨_, _, _, _, cfg⟩ := exUserInterpBox_cfg fl fr 0 1 6
  obtain ⟨_, _, _, _, cfg'⟩ := exUserInterpFull_cfg fl fr 0 1
  have ct := exWorldBoxI_contract fl fr
  have h1 := exUserInterpBox_runs fl fr 0 1 6 (by decide) (by decide +kernel)
  have h2 := exUserInterpFull_runs fl fr 0 1 (by decide +kernel)
  obtain ⟨files, rest, files', rest', full, fullR, left, left', roi, roi', o, o', im, -, -, z, z', key⟩ := C145_zones_agree_interpolation_partial
    (exWorldBoxI fl fr) _ _ _ _ _ _ _ _ _ _ _ _ _ _ 8 8 _ _ _ _ _ _ _ _ _ _ _ _ _ _ _ _ _ _ _ (exUserInterpBox_wf 0 1 6) (exUserInterpFull_wf 0 1)
    ct.disk (exWorldBoxI_crops fl fr) (exWorldBoxI_whole fl fr) ct.pandora ct.keeps rfl exI_bounds exI_reads cfg cfg' (by decide) (by decide) h1 h2
  obtain ⟨⟨-, -, m⟩, -⟩ := exBoxI_images _ _ _ _ _ im
  refine ⟨files, rest, files', rest', by rw [h1]; exact congrArg (·, none) o, by rw [h2]; exact congrArg (·, none) o', fun j j1 j2 => ?_⟩
  obtain ⟨y1, y2⟩ := z _ List.mem_cons_self
  obtain ⟨y3, y4⟩ := z' _ List.mem_cons_self
  refine key (by rw [m]; simp) (sameExtent_const rfl _ _) (sameExtent_const rfl _ _) 3 j 3 j ((y1 3).2 (by omega))
    ((y2 j).2 (by omega)) ((y3 3).2 (by omega)) ((y4 j).2 (by omega)) rfl rfl ?_ ?_
  · simp only [InsideExtended]; omega
  · simp only [InsideExtended]; omega

/-! ### Counterexample -/

/-- The full statement of C145: the two executions give the same values at every pixel they share. -/
def C145Statement : Prop :=
  ∀ (w : World ℚ) (user user' p p' mc mc' inp inp' l r f f' : Fields) (out out' : List (Written ℚ))
    (H W : Nat) (dRow dCol : Disp) (rf rl cf cl rf' rl' cf' cl' : Int) (sr sc sr' sc' : Nat) (invalid : F ℚ) (n hw : Nat) (me : Measure)
    (ker : List (F ℚ × F ℚ) → F ℚ), user.wf → user'.wf → DiskContract w H W → CropsWhole w H W → WholeReadable w → PandoraContract w →
    PandoraKeeps w.pandora → w.run.zoom = zoomLinear → BoundsContract w.run.interp → ReadsInside w.run.interp →
    InterpolatedZone w user p mc inp l r f H W dRow dCol rf rl cf cl sr sc invalid n hw me ker →
    InterpolatedZone w user' p' mc' inp' l r f' H W dRow dCol rf' rl' cf' cl' sr' sc' invalid n hw me ker →
    rl < H ∧ cl < W → rl' < H ∧ cl' < W →
    Main.main w user = (out, none) → Main.main w user' = (out', none) →
    ∃ (files : Files ℚ (F ℚ)) (rest : List (Written ℚ)) (files' : Files ℚ (F ℚ)) (rest' : List (Written ℚ)) (full fullR left left' : Img ℚ)
      (roi roi' : Option Roi), out = .rasters files :: rest ∧ out' = .rasters files' :: rest' ∧
      ImagesRead w l r none full fullR ∧ ReadZone left roi H W rf rl cf cl ∧ ReadZone left' roi' H W rf' rl' cf' cl' ∧
      (fullR.noData ≠ .nan → SameExtent dRow dRow left left' → SameExtent dCol dCol left left' →
        ∀ i j i' j', i < files.row.h → j < files.row.w → i' < files'.row.h → j' < files'.row.w →
        rf + (i : Int) * sr = rf' + (i' : Int) * sr' → cf + (j : Int) * sc = cf' + (j' : Int) * sc' →
        files'.row.values i' j' = files.row.values i j ∧ files'.col.values i' j' = files.col.values i j ∧
          files'.score.values i' j' = files.score.values i j)

/-- A right image which holds no data, but on its row 5. -/
def exOnlyFive (x _y : Nat) : F ℚ := if x = 5 then .fin 0 else .fin (-1)

/-- The first pixel of an execution with displacements of two rows. -/
theorem exBoxI_pixel {user p mc inp f : Fields} {out : List (Written ℚ)} {rl : Int}
    (wf : user.wf) (cfg : InterpolatedZone (exWorldBoxI (fun _ _ => .fin 0) exOnlyFive) user p mc inp exL exR f 8 8 ⟨.const 2, 0⟩ ⟨.const 0, 0⟩
      0 rl 0 7 1 1 .nan 1 0 .min sad) (hrl : rl = 1 ∨ rl = 7) (h : Main.main (exWorldBoxI (fun _ _ => .fin 0) exOnlyFive) user = (out, none)) :
    ∃ files rest, out = .rasters files :: rest ∧ (0 < files.row.h ∧ 0 < files.row.w) ∧
      (rl = 1 → user.get "ROI" ≠ none → files.row.values 0 0 = .nan) ∧
      (rl = 7 → user.get "ROI" = none → ∃ y, files.row.values 0 0 = .fin y) := by
  have ct := exWorldBoxI_contract (fun _ _ => .fin 0) exOnlyFive
  obtain ⟨s⟩ := interpZone_stages cfg wf ct.pandora h
  obtain ⟨hn, dRow1, dCol1, ax, ay, fr, lr, fc, lc, gmin, gmax, -, i1, i2, i3, iz, i4, i4', i5, i6, i7⟩ :=
    s.interpWinner ct.disk ct.keeps wf cfg.pipeline cfg.asks.zone (by omega) cfg.refinement cfg.method cfg.cost cfg.matcher exI_bounds
  obtain ⟨j1, j2⟩ := i1 cfg.noEstimation
  obtain ⟨⟨rfl, rfl⟩, ⟨e1, e2⟩, -⟩ := s.asked wf cfg.pipeline cfg.noEstimation cfg.asks j1 j2
  obtain ⟨⟨m1, m2, m3⟩, m4, ⟨m6, m7⟩, m5⟩ := exBoxI_images _ _ _ _ _ (s.images wf cfg.input cfg.left cfg.right)
  obtain ⟨rfl, rfl⟩ := extent_const i4.1
  obtain ⟨rfl, rfl⟩ := extent_const i4.2
  have zf := iz _ List.mem_cons_self
  have z1 : 0 < s.files.row.h := (zf.rows 0).2 (by omega)
  have z2 : 0 < s.files.row.w := (zf.cols 0).2 (by omega)
  have origin : (s.left.img.row0 = 0 ∧ s.left.img.col0 = 0) ∧ (s.right.img.row0 = 0 ∧ s.right.img.col0 = 0) ∧ 0 < s.left.img.h ∧ 0 < s.left.img.w := by
    have : s.left.img.row0 = 0 ∧ s.left.img.col0 = 0 ∧ 0 < s.left.img.h ∧ 0 < s.left.img.w := by
      cases hR : s.roi with
      | none =>
        rw [hR] at i2
        obtain ⟨q1, q2, q3, q4, -⟩ := i2
        omega
      | some R =>
        rw [hR] at i2
        obtain ⟨⟨q1, q2, q3, q4, q5, q6, q7⟩, q8, q9, q10, q11⟩ := i2
        omega
    rw [m6, m7]
    omega
  obtain ⟨⟨o1, o2⟩, ⟨o3, o4⟩, o5, o6⟩ := origin
  obtain ⟨r0, c0, s0, hb', hp, -⟩ := i7 0 z1 0 z2 0 0 (by simp) (by simp)
  have hzoom : (exWorldBoxI (fun _ _ => .fin 0) exOnlyFive).run.zoom = zoomLinear := rfl
  simp only [hzoom, o1, o2, sub_zero, Int.toNat_zero] at hp
  have g1 := i5 0 o5 0 o6
  have g2 := i6 0 o5 0 o6
  simp only [initAt] at g1 g2
  have hfin : FiniteKernel (sad : List (F ℚ × F ℚ) → F ℚ) := sumOf_finite _
  have hdata : FiniteData s.left.img := fun x _ y _ _ => ⟨_, m4 (fun _ _ => rfl) x y⟩
  have hcost : ∀ x y : Int, -3 ≤ y → y ≤ 3 → (Pandora.windowCost 0 sad s.left.img (slabImg zoomLinear s.right.img 1 (x : ℚ)) gmin gmax 0 0 (y : ℚ) ≠ .nan ↔
      Comparable 0 s.left.img s.right.img 0 0 x y) := by
    intro x y h1 h2
    rw [slab_int]
    exact window_exists (ker := sad) (gmin := gmin) (gmax := gmax) hfin (by rw [m3]; simp) hdata
      (fun x _ y _ _ => by rw [m5 o3 o4]; unfold exOnlyFive; split_ifs <;> exact ⟨_, rfl⟩) (by omega)
  refine ⟨s.files, _, s.outIs, ⟨z1, z2⟩, fun e hroi => ?_, fun e hroi => ?_⟩
  · subst e
    cases hR : s.roi with
    | none => exact absurd ((roiFor_none s.roiFor).1 hR) hroi
    | some R =>
      rw [hR] at i2
      obtain ⟨q1, q2, q3, q4, q5⟩ := i2
      obtain ⟨R0, q6, q7⟩ := s.region hR j1 j2
      simp only [getRoiProcessing, dispBounds, q6, Except.ok.injEq, Prod.mk.injEq] at q7
      have hd : R.margins.down = 3 := by rw [← q7.1]; rfl
      have w1 := q1.row1
      refine (hp.empty fun i hi j hj _ => ?_).1
      obtain ⟨y, hy⟩ := lattice_points hn i4'.2 hi
      obtain ⟨x, hx⟩ := lattice_points hn i4'.1 hj
      simp only [Nat.cast_one, mul_one] at hx hy
      rw [hx, hy]
      by_contra hne
      have b1 : (-3 : ℚ) ≤ y := by
        have := i4'.2.first
        rw [← hy]
        rcases Nat.eq_zero_or_pos i with rfl | h0
        · rw [this]; norm_num
        · have := (i4'.2.increasing 0 i h0 hi).le
          rw [i4'.2.first] at this
          norm_num at this
          linarith
      have b2 : (y : ℚ) ≤ 3 := by
        have := i4'.2.last
        rw [← hy]
        rcases Nat.lt_or_ge i (ax.n - 1) with h0 | h0
        · have := (i4'.2.increasing i _ h0 (by omega)).le
          rw [i4'.2.last] at this
          norm_num at this
          linarith
        · rw [show i = ax.n - 1 by omega, this]; norm_num
      have v := (hcost x y (by exact_mod_cast b1) (by exact_mod_cast b2)).1 hne
      have u := v.inside
      simp only [BothInside] at u
      have := v.values x.toNat y.toNat (by omega) (by omega) (by omega) (by omega)
      rw [m5 o3 o4, m3, exOnlyFive, if_neg (by omega)] at this
      exact this rfl
  · have hR := (roiFor_none s.roiFor).2 hroi
    rw [hR] at i2
    obtain ⟨q1, q2, q3, q4, -⟩ := i2
    obtain ⟨j, hj, ej, -⟩ := i4'.1.complete 5 (by norm_num) (by norm_num)
    obtain ⟨i, hi, ei, -⟩ := i4'.2.complete 0 (by norm_num) (by norm_num)
    have t := (hcost 5 0 (by decide) (by decide)).2 ⟨by simp only [BothInside]; omega, fun x y _ _ _ _ => by simp [Pandora.noDataAt, m1],
      by simp [Pandora.invalidAt, m1], fun x y _ _ _ _ => by rw [m5 o3 o4, m3, exOnlyFive, if_pos (by omega)]; simp⟩
    obtain ⟨-, -, -, y, -, -, -, -, -, -, e', -⟩ := hp.minimised ⟨i, hi, j, hj, by
      rw [ej, ei]
      exact ⟨.inr (.inr (by norm_num)), .inl (by simp [initAt])⟩, by
      rw [ej, ei]
      simpa using t⟩
    exact ⟨y, e'⟩

/-- The full statement is false: in the full images the pixel of row 0 has a cost for the displacement of five rows, which the interpolation
computes; the region of the rows 0 and 1 is read with three more rows, and no cost exists there. -/
theorem C145_false : ¬ C145Statement := by
  intro hst
  obtain ⟨p, mc, inp, f, cfg⟩ := exUserInterpBox_cfg (fun _ _ => .fin 0) exOnlyFive 2 0 1
  obtain ⟨p', mc', inp', f', cfg'⟩ := exUserInterpFull_cfg (fun _ _ => .fin 0) exOnlyFive 2 0
  have ct := exWorldBoxI_contract (fun _ _ => .fin 0) exOnlyFive
  have h1 := exUserInterpBox_runs (fun _ _ => .fin 0) exOnlyFive 2 0 1 (by decide) (by decide +kernel)
  have h2 := exUserInterpFull_runs (fun _ _ => .fin 0) exOnlyFive 2 0 (by decide +kernel)
  obtain ⟨files, rest, files', rest', full, fullR, left, left', roi, roi', o, o', im, -, -, key⟩ := hst
    (exWorldBoxI (fun _ _ => .fin 0) exOnlyFive) _ _ _ _ _ _ _ _ _ _ _ _ _ _ 8 8 _ _ _ _ _ _ _ _ _ _ _ _ _ _ _ _ _ _ _ (exUserInterpBox_wf 2 0 1)
    (exUserInterpFull_wf 2 0) ct.disk (exWorldBoxI_crops _ _) (exWorldBoxI_whole _ _) ct.pandora ct.keeps rfl exI_bounds exI_reads cfg cfg'
    (by decide) (by decide) h1 h2
  obtain ⟨⟨-, -, m⟩, -⟩ := exBoxI_images _ _ _ _ _ im
  obtain ⟨fs, _, w1, ⟨w2, w3⟩, w4, -⟩ := exBoxI_pixel (exUserInterpBox_wf 2 0 1) cfg (.inl rfl) h1
  obtain ⟨fs', _, w1', ⟨w2', w3'⟩, -, w4'⟩ := exBoxI_pixel (exUserInterpFull_wf 2 0) cfg' (.inr rfl) h2
  have e1 := o.symm.trans w1
  have e2 := o'.symm.trans w1'
  simp only [List.cons.injEq, Written.rasters.injEq] at e1 e2
  obtain ⟨rfl, -⟩ := e1
  obtain ⟨rfl, -⟩ := e2
  have v := (key (by rw [m]; simp) (sameExtent_const rfl _ _) (sameExtent_const rfl _ _) 0 0 0 0 w2 w3 w2' w3' rfl rfl).1
  obtain ⟨y, hy⟩ := w4' rfl (by simp [exUserInterpFull, dict, Fields.get])
  rw [w4 rfl (by simp [exUserInterpBox, dict, Fields.get]), hy] at v
  exact absurd v (by simp)

end Verif.Props
