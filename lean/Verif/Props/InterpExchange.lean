import Verif.Spec.InterpExchange
import Verif.Props.InterpTiles

/-!
# C148: exchanged rows and columns with an interpolation
-/

namespace Verif.Props

open Verif Verif.Config Verif.Machine Verif.ImgTools Verif.MatchingCost Verif.Disparity Verif.Run Verif.Main Verif.Spec Verif.Save
  Verif.Statistics Verif.Interpolation

set_option linter.unusedSectionVars false

variable {K : Type} [Field K] [LinearOrder K] [IsStrictOrderedRing K] [FloorRing K]

/-- The interpolation of a full table of costs and of the transposed table. -/
theorem interp_exchanged {e : IExt K} {me : Measure} {read read' : K → K → Prop} {cost cost' : K → K → F K} {ax ay ax' ay' : Arr1 K}
    {r0 c0 row col score row' col' score' : F K} (he : ReadsInside e) (hs : Exchanges e) (hx : SameAxis ay ax') (hy : SameAxis ax ay')
    (h0 : 0 < ax.n ∧ 0 < ay.n)
    (hr : ∀ i < ax.n, ∀ j < ay.n, (read (ay.get j) (ax.get i) ∧ read' (ax.get i) (ay.get j)) ∧ cost (ay.get j) (ax.get i) ≠ .nan ∧
      cost' (ax.get i) (ay.get j) = cost (ay.get j) (ax.get i))
    (h : InterpPixel e me read cost ax ay r0 c0 row col score) (h' : InterpPixel e me read' cost' ax' ay' c0 r0 row' col' score') :
    col' = row ∧ row' = col ∧ score' = score := by
  obtain ⟨x1, x2⟩ := id hx
  obtain ⟨y1, y2⟩ := id hy
  obtain ⟨⟨q1, q2⟩, q3, q4⟩ := hr 0 h0.1 0 h0.2
  obtain ⟨m, f, x, y, m1, m2, -, m4, m5, m6, m7, m8⟩ := h.minimised ⟨0, h0.1, 0, h0.2, q1, q3⟩
  obtain ⟨m', f', x', y', m1', m2', -, m4', m5', m6', m7', m8'⟩ := h'.minimised
    ⟨0, by omega, 0, by omega, by rw [x2 0 h0.2, y2 0 h0.1]; exact q2, by rw [x2 0 h0.2, y2 0 h0.1, q4]; exact q3⟩
  rw [x1, y1] at m1' m2'
  have all : ∀ j < ay.n, ∀ i < ax.n, m'.get i j = m.get j i := by
    intro j hj i hi
    obtain ⟨⟨u1, u2⟩, u3, u4⟩ := hr i hi j hj
    rw [m2' j hj i hi (by rw [x2 j hj, y2 i hi]; exact u2) (by rw [x2 j hj, y2 i hi, u4]; exact u3), m2 i hi j hj u1 u3, x2 j hj, y2 i hi, u4]
  have e1 := hs.surface ax ay m m' f h0.1 h0.2 m1 ⟨m1'.1, m1'.2⟩ all m4
  have e2 := he ay ax ax' ay' m' m' hx hy h0.2 h0.1 m1' m1' fun _ _ _ _ => rfl
  rw [e1, m4', Except.ok.injEq] at e2
  subst e2
  rw [x1, y1, x2 0 h0.2, y2 0 h0.1, x2 (ay.n - 1) (by omega), y2 (ax.n - 1) (by omega), hs.search, m5, Prod.swap_prod_mk, Prod.mk.injEq] at m5'
  obtain ⟨rfl, rfl⟩ := m5'
  rw [m6, m7, m8, m6', m7', m8']
  exact ⟨rfl, rfl, rfl⟩

/-- The points of a lattice of whole disparities. -/
theorem lattice_whole {b : Arr1 K} {x y : Int} (h : FullLattice b x y 1) {i : Nat} (hi : i < b.n) : ∃ k : Int, b.get i = (k : K) ∧ x ≤ k ∧ k ≤ y := by
  obtain ⟨k, hk⟩ := lattice_points (by omega) h hi
  rw [Nat.cast_one, mul_one] at hk
  refine ⟨k, hk, ?_, ?_⟩
  · rw [← Int.cast_le (R := K), ← hk, ← h.first]
    by_cases h0 : i = 0
    · rw [h0]
    · exact (h.increasing 0 i (by omega) hi).le
  · rw [← Int.cast_le (R := K), ← hk, ← h.last]
    by_cases h0 : i = b.n - 1
    · rw [h0]
    · exact (h.increasing i (b.n - 1) (by omega) (by omega)).le

/-- C148 (partial): exchanging the rows and the columns of the images exchanges the disparities given by an interpolation. Two successful executions on
full images, without estimation, with disparities of whole pixels before the interpolation and the same window cost and invalid value, whose measure does
not depend on the order of the pixels in the window, with functions `interp2d` and `minimize` which treat the axes alike: the images of the second have
the rows of the first as columns, with their masks, and so do its steps and intervals. The row disparity of one is the column disparity of the
other at the transposed pixel, and the scores are the same. Proved at the pixels whose costs all exist. Missing: the other ones, whose missing costs
are filled along the rows only (`C148_false`). -/
theorem C148_transposed_interpolation_partial (w w' : World K) (user user' p p' mc mc' inp inp' l r l' r' f f' : Fields) (out out' : List (Written K))
    (H W : Nat) (dRow dCol dRow' dCol' : Disp) (sr sc : Nat) (invalid : F K) (hw : Nat) (me : Measure) (ker : List (F K × F K) → F K)
    (wf : user.wf) (wf' : user'.wf)
    (hdisk : DiskContract w H W) (hpan : PandoraContract w) (hkeeps : PandoraKeeps w.pandora) (hzoom : w.run.zoom = zoomLinear)
    (hdisk' : DiskContract w' W H) (hpan' : PandoraContract w') (hkeeps' : PandoraKeeps w'.pandora) (hzoom' : w'.run.zoom = zoomLinear)
    (hext : w'.run.interp = w.run.interp) (hb : BoundsContract w.run.interp) (he : ReadsInside w.run.interp) (hs : Exchanges w.run.interp)
    (cfg : Interpolated w user p mc inp l r f H W dRow dCol sr sc invalid 1 hw me ker)
    (cfg' : Interpolated w' user' p' mc' inp' l' r' f' W H dRow' dCol' sc sr invalid 1 hw me ker) (hk : OrderFree ker)
    (himg : ∀ left right left' right', ImagesRead w l r none left right → ImagesRead w' l' r' none left' right' →
      Transposed left left' ∧ Transposed right right')
    (hnd : ∀ left right, ImagesRead w l r none left right → right.noData ≠ .nan)
    (hr : TransposedIntervals dRow dCol' H W) (hc : TransposedIntervals dCol dRow' H W)
    (h : Main.main w user = (out, none)) (h' : Main.main w' user' = (out', none)) :
    ∃ files rest files' rest' left right, out = .rasters files :: rest ∧ out' = .rasters files' :: rest' ∧ ImagesRead w l r none left right ∧
      (∀ f ∈ [files.row, files.col, files.score], (∀ i, i < f.h ↔ i * sr < H) ∧ ∀ j, j < f.w ↔ j * sc < W) ∧
      (∀ f ∈ [files'.row, files'.col, files'.score], (∀ i, i < f.h ↔ i * sc < W) ∧ ∀ j, j < f.w ↔ j * sr < H) ∧
      ∀ i j : Nat, i * sr < H → j * sc < W → AllCosts hw ker left right dRow dCol (i * sr) (j * sc) →
        files'.col.values j i = files.row.values i j ∧ files'.row.values j i = files.col.values i j ∧
          files'.score.values j i = files.score.values i j := by
  obtain ⟨s⟩ := interpolated_stages cfg wf hpan h
  obtain ⟨s'⟩ := interpolated_stages cfg' wf' hpan' h'
  obtain ⟨hn, im, ⟨sl, sr1⟩, o, z, ax, ay, fr, lr, fc, lc, gmin, gmax, ⟨x1, x2⟩, ⟨fy, fx⟩, hg, key⟩ := s.interpolated cfg wf hdisk hkeeps hb
  obtain ⟨-, im', ⟨sl', sr1'⟩, o', z', ax', ay', fr', lr', fc', lc', gmin', gmax', ⟨x1', x2'⟩, ⟨fy', fx'⟩, hg', key'⟩ :=
    s'.interpolated cfg' wf' hdisk' hkeeps' (by rw [hext]; exact hb)
  obtain ⟨tl, tr⟩ := himg _ _ _ _ im im'
  have hnd1 := hnd _ _ im
  have hnd2 : s'.right.img.noData ≠ .nan := by rw [tr.noData]; exact hnd1
  obtain ⟨rfl, rfl⟩ := extent_transposed sl sl' o o' hr x1 x2'
  obtain ⟨rfl, rfl⟩ := extent_transposed sl sl' o o' hc x2 x1'
  rw [hzoom] at key
  rw [hzoom', hext] at key'
  refine ⟨s.files, _, s'.files, _, s.left.img, s.right.img, s.outIs, s'.outIs, im, z, z', fun i j ha hb all => ?_⟩
  obtain ⟨r0, c0, s0, b1, p1⟩ := key i j _ _ rfl rfl ha hb
  obtain ⟨r1, c1, s1, b2, p2⟩ := key' j i _ _ rfl rfl hb ha
  generalize i * sr = a at *
  generalize j * sc = b at *
  obtain ⟨g1, g2⟩ := hg a ha b hb
  obtain ⟨g1', g2'⟩ := hg' b hb a ha
  obtain ⟨q1, q2⟩ := hr a ha b hb
  obtain ⟨q3, q4⟩ := hc a ha b hb
  obtain ⟨t1, t2⟩ := all.rows _ _ x1
  obtain ⟨t3, t4⟩ := all.cols _ _ x2
  have hcost : ∀ x y : Int, initAt dCol a b - dCol.range - 3 ≤ y → y ≤ initAt dCol a b + dCol.range + 3 →
      Pandora.windowCost hw ker s.left.img (slabImg zoomLinear s.right.img 1 (x : K)) gmin gmax a b (y : K) =
        wholeCost hw ker s.left.img s.right.img a b x y := by
    intro x y h1 h2
    rw [slab_int, window_whole hnd1]
    rw [g1, g2]
    exact ⟨h1, h2⟩
  have hcost' : ∀ x y : Int, initAt dRow a b - dRow.range - 3 ≤ x → x ≤ initAt dRow a b + dRow.range + 3 →
      Pandora.windowCost hw ker s'.left.img (slabImg zoomLinear s'.right.img 1 (y : K)) gmin' gmax' b a (x : K) =
        wholeCost hw ker s.left.img s.right.img a b x y := by
    intro x y h1 h2
    rw [slab_int, window_whole hnd2, wholeCost_transposed hk tl tr (by omega) (by omega)]
    rw [g1', g2', ← q1, ← q2]
    exact ⟨h1, h2⟩
  have asked : ∀ x y : K, AskedPair dRow dCol 1 a b x y → ∃ kx ky : Int, (x = kx ∧ y = ky) ∧
      (initAt dRow a b - dRow.range ≤ kx ∧ kx ≤ initAt dRow a b + dRow.range) ∧ initAt dCol a b - dCol.range ≤ ky ∧ ky ≤ initAt dCol a b + dCol.range := by
    rintro x y ⟨⟨kx, ky, hx, hy⟩, ⟨u1, u2⟩, u3, u4⟩
    rw [Nat.cast_one, mul_one] at hx hy
    subst hx hy
    exact ⟨kx, ky, ⟨rfl, rfl⟩, ⟨Int.cast_le.1 u1, Int.cast_le.1 u2⟩, Int.cast_le.1 u3, Int.cast_le.1 u4⟩
  have b3 : BestPair me (AskedPair dRow' dCol' 1 (b : Int) (a : Int)) (fun x y => Pandora.windowCost hw ker s'.left.img
      (slabImg zoomLinear s'.right.img 1 x) gmin' gmax' b a y) invalid c0 r0 s0 := by
    have ex := best_exchanged b1
    refine best_congr (fun x y q => ?_) (best_asked (fun x y => ?_) ex)
    · have q' : AskedPair dRow dCol 1 a b y x := by
        obtain ⟨⟨u, v, h1, h2⟩, h3, h4⟩ := q
        rw [← q3, ← q4] at h3
        rw [← q1, ← q2] at h4
        exact ⟨⟨v, u, h2, h1⟩, h4, h3⟩
      obtain ⟨kx, ky, ⟨rfl, rfl⟩, ⟨u1, u2⟩, u3, u4⟩ := asked y x q'
      rw [hcost kx ky (by omega) (by omega), hcost' kx ky (by omega) (by omega)]
    · unfold AskedPair
      rw [q1, q2, q3, q4]
      exact ⟨fun ⟨⟨u, v, h1, h2⟩, h3, h4⟩ => ⟨⟨v, u, h2, h1⟩, h4, h3⟩, fun ⟨⟨u, v, h1, h2⟩, h3, h4⟩ => ⟨⟨v, u, h2, h1⟩, h4, h3⟩⟩
  obtain ⟨rfl, rfl, -⟩ := BestPair.unique b2 b3
  have anyRead : ∀ (d : Disp) (f l c e : Int), f = initAt d c e - d.range → l = initAt d c e + d.range → ∀ x : K, ReadDisp d f l c e x := by
    rintro d f l c e rfl rfl x
    unfold ReadDisp
    rcases lt_or_ge x ((initAt d c e - d.range : Int) : K) with u | u
    · exact .inr (.inl u)
    · rcases lt_or_ge ((initAt d c e + d.range : Int) : K) x with v | v
      · exact .inr (.inr v)
      · exact .inl ⟨u, v⟩
  refine interp_exchanged he hs (lattice_same hn fy fx') (lattice_same hn fx fy') ⟨fx.pos, fy.pos⟩ (fun i hi j hj => ?_) p1 p2
  obtain ⟨kx, hx, x5, x6⟩ := lattice_whole fy hj
  obtain ⟨ky, hy, y5, y6⟩ := lattice_whole fx hi
  refine ⟨⟨⟨anyRead _ _ _ _ _ t1 t2 _, anyRead _ _ _ _ _ t3 t4 _⟩, anyRead _ _ _ _ _ (by omega) (by omega) _, anyRead _ _ _ _ _ (by omega) (by omega) _⟩, ?_⟩
  rw [hx, hy, hcost kx ky (by omega) (by omega), hcost' kx ky (by omega) (by omega)]
  exact ⟨all.costs kx ky (by omega) (by omega) (by omega) (by omega), rfl⟩

/-! ## Examples -/

/-- The surface goes through the costs; the minimisation ends at the last bounds. -/
def exCorner : IExt ℚ := ⟨exI.interp2d, fun _ _ b => (b.1.2, b.2.2)⟩

theorem exCorner_bounds : BoundsContract exCorner := fun _ _ _ h1 h2 => ⟨h1, le_refl _, h2, le_refl _⟩

theorem exCorner_reads : ReadsInside exCorner := exI_reads

theorem exCorner_exchanges : Exchanges exCorner := by
  refine ⟨fun ax ay m m' f h1 h2 _ _ h hf => ?_, fun _ _ _ _ _ => rfl⟩
  simp only [exCorner, exI, Except.ok.injEq] at hf ⊢
  subst hf
  funext x y
  exact h _ (whereIs_lt ay h2 x) _ (whereIs_lt ax h1 y)

/-- Windows of one pixel compared by `sad`, on images of eight rows and eight columns, with this interpolation. -/
noncomputable def exWorldCorner (fl fr : Nat → Nat → F ℚ) : World ℚ :=
  { exWorldBoxI fl fr with run := { (exWorldBoxI fl fr).run with interp := exCorner } }

theorem exWorldCorner_contract (fl fr : Nat → Nat → F ℚ) : RunContract (exWorldCorner fl fr) 8 8 := by
  obtain ⟨⟨d1, d2, d3, d4, d5⟩, ⟨p1, p2⟩, k, r, a, o, i, s⟩ := exWorldBoxI_contract fl fr
  exact ⟨⟨d1, d2, d3, d4, d5⟩, ⟨p1, p2⟩, k, r, a, o, i, s⟩

theorem exCorner_cfg (fl fr : Nat → Nat → F ℚ) :
    ∃ p mc inp f, Interpolated (exWorldCorner fl fr) (exUserInterpFull 0 0) p mc inp exL exR f 8 8 ⟨.const 0, 0⟩ ⟨.const 0, 0⟩ 1 1 .nan 1 0 .min sad :=
  ⟨_, _, _, _, rfl, rfl, rfl, rfl, rfl, rfl, rfl, rfl, rfl,
    ⟨_, _, _, _, _, .int 1, rfl, rfl, rfl, .inl rfl, rfl, rfl⟩,
    ⟨⟨_, rfl, ⟨_, _, _, rfl, rfl, rfl, .inl rfl, .inl ⟨_, .inl rfl, rfl⟩⟩, ⟨_, _, _, rfl, rfl, rfl, .inl rfl, .inl ⟨_, .inl rfl, rfl⟩⟩⟩,
    .inr ⟨rfl, rfl, rfl, rfl, rfl⟩,
    ⟨_, _, _, rfl, rfl, rfl, .inl ⟨_, _, rfl, .inl rfl, .inl rfl⟩, .inl ⟨_, rfl, .inr (.inr (.inl ⟨rfl, rfl⟩))⟩⟩⟩⟩

theorem exCorner_runs (fl fr : Nat → Nat → F ℚ) :
    Main.main (exWorldCorner fl fr) (exUserInterpFull 0 0) = ((Main.main (exWorldCorner fl fr) (exUserInterpFull 0 0)).1, none) := by
  have : (Main.main (exWorldCorner fl fr) (exUserInterpFull 0 0)).2 = none := by
    obtain ⟨m, cfg, h⟩ := accepted_ok (w := exWorldEight) (user := exUserInterpFull 0 0) (by decide +kernel)
    refine C81_accepted_runs_partial (exWorldCorner fl fr) _ _ _ cfg m 8 8 0 7 0 7 1 1 (exUserInterpFull_wf 0 0)
      (exWorldCorner_contract fl fr) rfl (by decide) rfl (.inl ⟨_, _, rfl, .inl rfl, .inl rfl⟩) (.inr ⟨rfl, rfl, rfl, rfl, rfl⟩) (by omega) ?_ ?_
      (.inl ⟨rfl, rfl⟩) h
    · intro he
      exact absurd rfl he
    · intro v hv
      have : v = exInterp := (Option.some.inj hv).symm
      subst this
      exact ⟨_, rfl, .inl rfl⟩
  exact Prod.ext rfl this

theorem exCorner_images {fl fr : Nat → Nat → F ℚ} {left right : Img ℚ} (h : ImagesRead (exWorldCorner fl fr) exL exR none left right) :
    left = exImgEight fl ∧ right = exImgEight fr := by
  obtain ⟨lj, rj, q1, q2, h1, h2⟩ := h
  have k1 := q1 "img" (.str "left.tif") rfl rfl
  have k2 := q2 "img" (.str "right.tif") rfl rfl
  simp only [exWorldCorner, exWorldBoxI, Except.ok.injEq] at h1 h2
  subst h1 h2
  constructor
  · rw [if_pos]
    simp [isLeftSection, k1, readValue]
  · rw [if_neg]
    simp [isLeftSection, k2, readValue]

theorem exEight_transposed (f f' : Nat → Nat → F ℚ) (h : ∀ x y, f' y x = f x y) : Transposed (exImgEight f) (exImgEight f') :=
  ⟨rfl, fun x _ y _ => h x y, fun _ _ _ _ => rfl, fun _ _ _ _ => rfl⟩

/-- The costs of the pixel of row 3 and column 3 are the values of the right image around it, but where it holds no data. -/
theorem exEight_cost (ρ : Nat → Nat → ℚ) (x y : Int) (hx : -3 ≤ x ∧ x ≤ 3) (hy : -3 ≤ y ∧ y ≤ 3) :
    wholeCost 0 sad (exImgEight fun _ _ => .fin 0) (exImgEight (exNumbers ρ)) 3 3 x y =
      if ρ (3 + x).toNat (3 + y).toNat = -1 then .nan else .fin |ρ (3 + x).toNat (3 + y).toNat| := by
  unfold wholeCost
  split_ifs with h1 h2 h2
  · obtain ⟨⟨-, u1, u2, u3, u4⟩, -, -, v⟩ := h1
    refine absurd ?_ (v (3 + x).toNat (3 + y).toNat (by push_cast; omega) (by push_cast; omega) (by push_cast; omega) (by push_cast; omega))
    simp [exImgEight, exNumbers, exLeftImg, h2]
  · simp [wholePairs, exImgEight, exNumbers, sad, sumOf, F.add]
  · rfl
  · refine absurd ⟨?_, fun _ _ _ _ _ _ => rfl, rfl, fun x' y' u1 u2 u3 u4 => ?_⟩ h1
    · simp only [BothInside, exImgEight]
      omega
    · push_cast at u1 u2 u3 u4
      rw [show x' = (3 + x).toNat by omega, show y' = (3 + y).toNat by omega]
      simpa [exImgEight, exNumbers, exLeftImg] using h2

/-- Whatever the numbers of the right image, which has no no-data pixel: the pixel of row 3 and column 3 of these images, and of the transposed ones. -/
example (ρ : Nat → Nat → ℚ) (hρ : ∀ x y, ρ x y ≠ -1) : ∃ files rest files' rest',
    Main.main (exWorldCorner (fun _ _ => .fin 0) (exNumbers ρ)) (exUserInterpFull 0 0) = (.rasters files :: rest, none) ∧
    Main.main (exWorldCorner (fun _ _ => .fin 0) (exNumbers fun x y => ρ y x)) (exUserInterpFull 0 0) = (.rasters files' :: rest', none) ∧
    files'.col.values 3 3 = files.row.values 3 3 ∧ files'.row.values 3 3 = files.col.values 3 3 ∧
      files'.score.values 3 3 = files.score.values 3 3 := by
  obtain ⟨_, _, _, _, cfg⟩ := exCorner_cfg (fun _ _ => .fin 0) (exNumbers ρ)
  obtain ⟨_, _, _, _, cfg'⟩ := exCorner_cfg (fun _ _ => .fin 0) (exNumbers fun x y => ρ y x)
  have ct := exWorldCorner_contract (fun _ _ => .fin 0) (exNumbers ρ)
  have ct' := exWorldCorner_contract (fun _ _ => .fin 0) (exNumbers fun x y => ρ y x)
  have h1 := exCorner_runs (fun _ _ => .fin 0) (exNumbers ρ)
  have h2 := exCorner_runs (fun _ _ => .fin 0) (exNumbers fun x y => ρ y x)
  obtain ⟨files, rest, files', rest', left, right, o, o', im, -, -, key⟩ := C148_transposed_interpolation_partial _ _ _ _ _ _ _ _ _ _ _ _ _ _ _ _ _ _
    8 8 _ _ _ _ _ _ _ _ _ _ (exUserInterpFull_wf 0 0) (exUserInterpFull_wf 0 0) ct.disk ct.pandora ct.keeps rfl ct'.disk ct'.pandora ct'.keeps rfl
    rfl exCorner_bounds exCorner_reads exCorner_exchanges cfg cfg' (sumOf_orderFree _) (fun left right left' right' i i' => by
      obtain ⟨rfl, rfl⟩ := exCorner_images i
      obtain ⟨rfl, rfl⟩ := exCorner_images i'
      exact ⟨exEight_transposed _ _ fun _ _ => rfl, exEight_transposed _ _ fun _ _ => rfl⟩) (fun left right i => by
      obtain ⟨rfl, rfl⟩ := exCorner_images i
      simp [exImgEight, exLeftImg]) (fun _ _ _ _ => ⟨rfl, rfl⟩) (fun _ _ _ _ => ⟨rfl, rfl⟩) h1 h2
  obtain ⟨rfl, rfl⟩ := exCorner_images im
  refine ⟨files, rest, files', rest', by rw [h1]; exact congrArg (·, none) o, by rw [h2]; exact congrArg (·, none) o',
    key 3 3 (by decide) (by decide) ⟨fun _ _ h => extent_const h, fun _ _ h => extent_const h, fun x y u1 u2 u3 u4 => ?_⟩⟩
  simp only [initAt] at u1 u2 u3 u4
  rw [exEight_cost ρ x y (by omega) (by omega), if_neg (hρ _ _)]
  simp

/-! ### Counterexample -/

/-- The full statement of C148: the disparities are exchanged at every pixel. -/
def C148Statement : Prop :=
  ∀ (w w' : World ℚ) (user user' p p' mc mc' inp inp' l r l' r' f f' : Fields) (out out' : List (Written ℚ))
    (H W : Nat) (dRow dCol dRow' dCol' : Disp) (sr sc : Nat) (invalid : F ℚ) (hw : Nat) (me : Measure) (ker : List (F ℚ × F ℚ) → F ℚ),
    user.wf → user'.wf → DiskContract w H W → PandoraContract w → PandoraKeeps w.pandora → w.run.zoom = zoomLinear →
    DiskContract w' W H → PandoraContract w' → PandoraKeeps w'.pandora → w'.run.zoom = zoomLinear →
    w'.run.interp = w.run.interp → BoundsContract w.run.interp → ReadsInside w.run.interp → Exchanges w.run.interp →
    Interpolated w user p mc inp l r f H W dRow dCol sr sc invalid 1 hw me ker →
    Interpolated w' user' p' mc' inp' l' r' f' W H dRow' dCol' sc sr invalid 1 hw me ker → OrderFree ker →
    (∀ left right left' right', ImagesRead w l r none left right → ImagesRead w' l' r' none left' right' →
      Transposed left left' ∧ Transposed right right') →
    (∀ left right, ImagesRead w l r none left right → right.noData ≠ .nan) →
    TransposedIntervals dRow dCol' H W → TransposedIntervals dCol dRow' H W →
    Main.main w user = (out, none) → Main.main w' user' = (out', none) →
    ∃ files rest files' rest', out = .rasters files :: rest ∧ out' = .rasters files' :: rest' ∧
      ∀ i j : Nat, i * sr < H → j * sc < W → files'.col.values j i = files.row.values i j ∧ files'.row.values j i = files.col.values i j ∧
        files'.score.values j i = files.score.values i j

/-- A right image with one no-data pixel at row 6 and column 6. -/
def exHole (x y : Nat) : ℚ := if x = 6 ∧ y = 6 then -1 else if x = 6 ∧ y = 5 then 1 else if x = 5 ∧ y = 6 then 2 else 0

/-- The missing cost of the pixel of row 3 and column 3 takes the last value of its row. -/
theorem exHole_pixel {ρ : Nat → Nat → ℚ} (hρ : ∀ x y, ρ x y = -1 ↔ x = 6 ∧ y = 6) {p mc inp f : Fields} {out : List (Written ℚ)}
    (cfg : Interpolated (exWorldCorner (fun _ _ => .fin 0) (exNumbers ρ)) (exUserInterpFull 0 0) p mc inp exL exR f 8 8 ⟨.const 0, 0⟩ ⟨.const 0, 0⟩ 1 1
      .nan 1 0 .min sad) (h : Main.main (exWorldCorner (fun _ _ => .fin 0) (exNumbers ρ)) (exUserInterpFull 0 0) = (out, none)) :
    ∃ files rest, out = .rasters files :: rest ∧ files.score.values 3 3 = .fin |ρ 6 5| := by
  have ct := exWorldCorner_contract (fun _ _ => .fin 0) (exNumbers ρ)
  obtain ⟨s⟩ := interpolated_stages cfg (exUserInterpFull_wf 0 0) ct.pandora h
  obtain ⟨hn, im, -, -, -, ax, ay, fr, lr, fc, lc, gmin, gmax, ⟨x1, x2⟩, ⟨fy, fx⟩, hg, key⟩ :=
    s.interpolated cfg (exUserInterpFull_wf 0 0) ct.disk ct.keeps exCorner_bounds
  obtain ⟨rfl, rfl⟩ := extent_const x1
  obtain ⟨rfl, rfl⟩ := extent_const x2
  obtain ⟨i1, i2⟩ := exCorner_images im
  obtain ⟨r0, c0, s0, -, p1⟩ := key 3 3 3 3 rfl rfl (by decide) (by decide)
  obtain ⟨g1, g2⟩ := hg 3 (by decide) 3 (by decide)
  simp only [initAt] at g1 g2
  have size : ∀ b : Arr1 ℚ, FullLattice b (0 - 0 - 3) (0 + 0 + 3) 1 → b.n = 7 ∧ ∀ i < b.n, b.get i = (((i : Int) - 3 : Int) : ℚ) := by
    intro b hb
    have e := lattice_get hb (b.n - 1) (by have := hb.pos; omega)
    rw [hb.last] at e
    have := hb.pos
    have e' : ((b.n : ℚ)) = 7 := by
      rw [Nat.cast_sub (by omega)] at e
      norm_num at e
      linarith
    refine ⟨by exact_mod_cast e', fun i hi => ?_⟩
    rw [lattice_get hb i hi]
    push_cast
    norm_num
    ring
  obtain ⟨nx, gx⟩ := size ax fx
  obtain ⟨ny, gy⟩ := size ay fy
  rw [nx] at gx
  rw [ny] at gy
  have anyRead : ∀ x : ℚ, ReadDisp ⟨.const 0, 0⟩ (0 - 0) (0 + 0) ((3 : Nat) : Int) ((3 : Nat) : Int) x := by
    intro x
    unfold ReadDisp
    simp only [initAt, sub_zero, add_zero, Int.cast_zero]
    rcases lt_trichotomy x 0 with u | u | u
    · exact .inr (.inl u)
    · exact .inl ⟨u.ge, u.le⟩
    · exact .inr (.inr u)
  have hz : (exWorldCorner (fun _ _ => .fin 0) (exNumbers ρ)).run.zoom = zoomLinear := rfl
  have he : (exWorldCorner (fun _ _ => .fin 0) (exNumbers ρ)).run.interp = exCorner := rfl
  have cost : ∀ j < 7, ∀ i < 7, Pandora.windowCost 0 sad s.left.img (slabImg zoomLinear s.right.img 1 (ay.get j)) gmin gmax 3 3 (ax.get i) =
      if j = 6 ∧ i = 6 then .nan else .fin |ρ j i| := by
    intro j hj i hi
    rw [gx i hi, gy j hj, slab_int, i1, i2, window_whole (by simp [exImgEight, exLeftImg]) (by omega), exEight_cost ρ _ _ (by omega) (by omega),
      show (3 + ((j : Int) - 3)).toNat = j by omega, show (3 + ((i : Int) - 3)).toNat = i by omega]
    simp only [hρ]
  rw [hz, he] at p1
  obtain ⟨m, F, x, y, -, m2, m3, m4, m5, -, -, m8⟩ := p1.minimised ⟨0, by omega, 0, by omega, ⟨anyRead _, anyRead _⟩, by
    rw [cost 0 (by decide) 0 (by decide)]; simp⟩
  rw [nx, ny] at m2 m3
  have v65 : m.get 6 5 = .fin |ρ 6 5| := by
    have := m2 5 (by decide) 6 (by decide) ⟨anyRead _, anyRead _⟩ (by rw [cost 6 (by decide) 5 (by decide)]; simp)
    rw [this, cost 6 (by decide) 5 (by decide)]
    simp [toMinimise]
  have v66 : m.get 6 6 = .fin |ρ 6 5| := by
    rw [← v65]
    have kn : ∀ q : Nat × Nat, (q.1 < 7 ∧ q.2 < 7) → Pandora.windowCost 0 sad s.left.img (slabImg zoomLinear s.right.img 1 (ay.get q.1)) gmin gmax 3 3
        (ax.get q.2) ≠ .nan → ¬ (q.1 = 6 ∧ q.2 = 6) := by
      intro q hq hne e
      rw [cost q.1 hq.1 q.2 hq.2, if_pos e] at hne
      exact hne rfl
    refine (m3 6 (by decide) 6 (by decide) (fun q => kn (6, 6) (by decide) q.2 ⟨rfl, rfl⟩)).below (fun q hq => ?_) (6, 5) ⟨?_, fun q hq => ?_⟩
    · have := hq.1.1
      omega
    · exact ⟨by decide, ⟨anyRead _, anyRead _⟩, by rw [cost 6 (by decide) 5 (by decide)]; simp⟩
    · obtain ⟨u1, u2⟩ := hq.1
      have := kn q hq.1 hq.2.2
      simp only [rank]
      omega
  refine ⟨s.files, _, s.outIs, ?_⟩
  have wx : whereIs ax (ax.get 6) = 6 := whereIs_get ax fx.increasing 6 (by omega)
  have wy : whereIs ay (ay.get 6) = 6 := whereIs_get ay fy.increasing 6 (by omega)
  simp only [exCorner, exI, Except.ok.injEq] at m4
  simp only [exCorner, nx, ny, Prod.mk.injEq] at m5
  obtain ⟨rfl, rfl⟩ := m5
  rw [m8, ← m4]
  simp only [Nat.reduceSub, wx, wy, v66]
  simp [OpticalFlow.fabs]

/-- The full statement is false: a missing cost takes the last value of its row, which is not the last value of its column. -/
theorem C148_false : ¬ C148Statement := by
  intro hst
  have hρ : ∀ x y, exHole x y = -1 ↔ x = 6 ∧ y = 6 := by
    intro x y
    unfold exHole
    split_ifs with h1 h2 h3
    · simp [h1]
    · simp only [h1, iff_false]; norm_num
    · simp only [h1, iff_false]; norm_num
    · simp only [h1, iff_false]; norm_num
  have hρ' : ∀ x y, (fun x y => exHole y x) x y = -1 ↔ x = 6 ∧ y = 6 := fun x y => (hρ y x).trans and_comm
  obtain ⟨_, _, _, _, cfg⟩ := exCorner_cfg (fun _ _ => .fin 0) (exNumbers exHole)
  obtain ⟨_, _, _, _, cfg'⟩ := exCorner_cfg (fun _ _ => .fin 0) (exNumbers fun x y => exHole y x)
  have ct := exWorldCorner_contract (fun _ _ => .fin 0) (exNumbers exHole)
  have ct' := exWorldCorner_contract (fun _ _ => .fin 0) (exNumbers fun x y => exHole y x)
  have h1 := exCorner_runs (fun _ _ => .fin 0) (exNumbers exHole)
  have h2 := exCorner_runs (fun _ _ => .fin 0) (exNumbers fun x y => exHole y x)
  obtain ⟨files, rest, files', rest', o, o', key⟩ := hst _ _ _ _ _ _ _ _ _ _ _ _ _ _ _ _ _ _
    8 8 _ _ _ _ _ _ _ _ _ _ (exUserInterpFull_wf 0 0) (exUserInterpFull_wf 0 0) ct.disk ct.pandora ct.keeps rfl ct'.disk ct'.pandora ct'.keeps rfl
    rfl exCorner_bounds exCorner_reads exCorner_exchanges cfg cfg' (sumOf_orderFree _) (fun left right left' right' i i' => by
      obtain ⟨rfl, rfl⟩ := exCorner_images i
      obtain ⟨rfl, rfl⟩ := exCorner_images i'
      exact ⟨exEight_transposed _ _ fun _ _ => rfl, exEight_transposed _ _ fun _ _ => rfl⟩) (fun left right i => by
      obtain ⟨rfl, rfl⟩ := exCorner_images i
      simp [exImgEight, exLeftImg]) (fun _ _ _ _ => ⟨rfl, rfl⟩) (fun _ _ _ _ => ⟨rfl, rfl⟩) h1 h2
  obtain ⟨fs, _, w1, w2⟩ := exHole_pixel hρ cfg h1
  obtain ⟨fs', _, w1', w2'⟩ := exHole_pixel hρ' cfg' h2
  have e1 := o.symm.trans w1
  have e2 := o'.symm.trans w1'
  simp only [List.cons.injEq, Written.rasters.injEq] at e1 e2
  obtain ⟨rfl, -⟩ := e1
  obtain ⟨rfl, -⟩ := e2
  have v := (key 3 3 (by decide) (by decide)).2.2
  rw [w2, w2'] at v
  simp [exHole] at v

end Verif.Props
