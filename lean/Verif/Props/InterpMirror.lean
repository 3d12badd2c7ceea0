import Verif.Spec.InterpMirror
import Verif.Props.InterpExchange
import Verif.Props.RefinedMirror

/-!
# C150: mirrored images with an interpolation
-/

namespace Verif.Props

open Verif Verif.Config Verif.Machine Verif.ImgTools Verif.MatchingCost Verif.Disparity Verif.Run Verif.Main Verif.Spec Verif.Save
  Verif.Statistics Verif.Interpolation

set_option linter.unusedSectionVars false

variable {K : Type} [Field K] [LinearOrder K] [IsStrictOrderedRing K] [FloorRing K]

/-- A lattice between opposed ends is the mirrored axis. -/
theorem lattice_mirrored {t : Bool} {a a' : Arr1 K} {x y x' y' : Int} {n : Nat} (hn : 0 < n) (h : FullLattice a x y n) (h' : FullLattice a' x' y' n)
    (hx : x' = if t then -y else x) (hy : y' = if t then -x else y) : MirroredAxis t a a' := by
  have p := h.pos
  have p' := h'.pos
  have h0 : (0 : K) < n := Nat.cast_pos.2 hn
  have el : (y : K) = x + ((a.n - 1 : Nat) : K) / n := by rw [← h.last, lattice_get h _ (by omega)]
  have el' : (y' : K) = x' + ((a'.n - 1 : Nat) : K) / n := by rw [← h'.last, lattice_get h' _ (by omega)]
  have e : (y' : K) - x' = y - x := by
    rw [hx, hy]
    cases t
    · simp
    · simp only [if_true, Int.cast_neg]; ring
  have hsize : a'.n = a.n := by
    have q : ((a'.n - 1 : Nat) : K) / n = ((a.n - 1 : Nat) : K) / n := by linarith
    rw [div_left_inj' h0.ne', Nat.cast_inj] at q
    omega
  refine ⟨hsize, fun i hi => ?_⟩
  rw [lattice_get h i hi, lattice_get h' _ (by rw [hsize]; exact (turned_turned hi).2), hx]
  cases t
  · simp [turned, opposed]
  · simp only [turned, opposed, if_true, Int.cast_neg]
    rw [el, show a.n - 1 - i = (a.n - 1) - i from rfl, Nat.cast_sub (show i ≤ a.n - 1 by omega)]
    field_simp
    ring

/-- The ends of a mirrored axis. -/
theorem ends_mirrored {t : Bool} {a a' : Arr1 K} (hp : 0 < a.n) (h : MirroredAxis t a a') :
    (a'.get 0, a'.get (a'.n - 1)) = opposedPair t (a.get 0, a.get (a.n - 1)) := by
  obtain ⟨h1, h2⟩ := h
  have e0 := h2 0 hp
  have e1 := h2 (a.n - 1) (by omega)
  rw [h1]
  cases t
  · simp only [turned, opposed, opposedPair, Bool.false_eq_true, if_false] at *
    rw [e0, e1]
  · simp only [turned, opposed, opposedPair, if_true, Nat.sub_zero, Nat.sub_self] at *
    rw [e0, e1]

/-- The interpolation of a full table of costs and of the mirrored table. -/
theorem interp_mirrored {tr tc : Bool} {e : IExt K} {me : Measure} {read read' : K → K → Prop} {cost cost' : K → K → F K} {ax ay ax' ay' : Arr1 K}
    {r0 c0 row col score row' col' score' : F K} (hs : Mirrors tr tc e) (hx : MirroredAxis tc ax ax') (hy : MirroredAxis tr ay ay')
    (h0 : 0 < ax.n ∧ 0 < ay.n) (ix : ∀ i j, i < j → j < ax.n → ax.get i < ax.get j) (iy : ∀ i j, i < j → j < ay.n → ay.get i < ay.get j)
    (hr : ∀ i < ax.n, ∀ j < ay.n, (read (ay.get j) (ax.get i) ∧ read' (opposed tr (ay.get j)) (opposed tc (ax.get i))) ∧
      cost (ay.get j) (ax.get i) ≠ .nan ∧ cost' (opposed tr (ay.get j)) (opposed tc (ax.get i)) = cost (ay.get j) (ax.get i))
    (h : InterpPixel e me read cost ax ay r0 c0 row col score)
    (h' : InterpPixel e me read' cost' ax' ay' (opposedF tr r0) (opposedF tc c0) row' col' score') :
    row' = opposedF tr row ∧ col' = opposedF tc col ∧ score' = score := by
  obtain ⟨x1, x2⟩ := id hx
  obtain ⟨y1, y2⟩ := id hy
  obtain ⟨⟨q1, q2⟩, q3, q4⟩ := hr 0 h0.1 0 h0.2
  have lx := fun i (hi : i < ax.n) => (turned_turned (t := tc) hi).2
  have ly := fun j (hj : j < ay.n) => (turned_turned (t := tr) hj).2
  obtain ⟨m, f, x, y, m1, m2, -, m4, m5, m6, m7, m8⟩ := h.minimised ⟨0, h0.1, 0, h0.2, q1, q3⟩
  obtain ⟨m', f', x', y', m1', m2', -, m4', m5', m6', m7', m8'⟩ := h'.minimised
    ⟨turned tc ax.n 0, by rw [x1]; exact lx 0 h0.1, turned tr ay.n 0, by rw [y1]; exact ly 0 h0.2, by rw [x2 0 h0.1, y2 0 h0.2]; exact q2,
      by rw [x2 0 h0.1, y2 0 h0.2, q4]; exact q3⟩
  rw [x1, y1] at m1' m2'
  have all : ∀ j < ay.n, ∀ i < ax.n, m'.get (turned tr ay.n j) (turned tc ax.n i) = m.get j i := by
    intro j hj i hi
    obtain ⟨⟨u1, u2⟩, u3, u4⟩ := hr i hi j hj
    rw [m2' _ (lx i hi) _ (ly j hj) (by rw [x2 i hi, y2 j hj]; exact u2) (by rw [x2 i hi, y2 j hj, u4]; exact u3), m2 i hi j hj u1 u3, x2 i hi,
      y2 j hj, u4]
  have e1 := hs.surface ax ay ax' ay' m m' f ⟨h0.1, ix⟩ ⟨h0.2, iy⟩ hx hy m1 m1' all m4
  rw [e1, Except.ok.injEq] at m4'
  subst m4'
  rw [ends_mirrored h0.1 hx, ends_mirrored h0.2 hy, hs.search, m5, Prod.map_apply, Prod.mk.injEq] at m5'
  obtain ⟨rfl, rfl⟩ := m5'
  rw [m6, m7, m8, m6', m7', m8']
  refine ⟨?_, ?_, ?_⟩
  · cases tr <;> rfl
  · cases tc <;> rfl
  · dsimp only
    rw [opposed_twice, opposed_twice]

/-- A pair which is better than all the others is the one which is kept. -/
theorem best_sole {me : Measure} {asked : K → K → Prop} {cost : K → K → F K} {invalid row col s : F K} (b : BestPair me asked cost invalid row col s)
    {X Y : K} (ha : asked X Y) (hn : cost X Y ≠ .nan) (only : ∀ x y, asked x y → AtLeastAsGood me (cost x y) (cost X Y) → x = X ∧ y = Y) :
    row = .fin X ∧ col = .fin Y := by
  have bst := (b.best ⟨_, _, ha, hn⟩).2 _ ⟨hn, _, _, ha, rfl⟩
  obtain ⟨dr, dc, rfl, rfl, ⟨y, m1, m2⟩, ⟨x, m3, m4⟩, -⟩ := b.smallest ⟨_, _, ha, hn⟩
  obtain ⟨rfl, -⟩ := only _ _ m1 (by rw [m2]; exact bst)
  obtain ⟨-, rfl⟩ := only _ _ m3 (by rw [m4]; exact bst)
  exact ⟨rfl, rfl⟩

/-- C150 (partial): mirroring the images (upside down, left to right, or both) opposes the disparities given by an interpolation. Two successful
executions on full images, without estimation, with a step of one and disparities of whole pixels before the interpolation, the same window cost,
whose measure does not depend on the order of the pixels in the window, with functions `interp2d` and `minimize` which treat both directions of an axis
alike; the images of the second are those of the first mirrored, its intervals are opposed in the mirrored directions. At each pixel where one pair of
disparities is better than the others and whose costs all exist, the disparities of the second are, at the mirrored pixel, those of the first, opposed in the
mirrored directions, and the scores are the same. Missing: the pixels with missing costs, which take the last known cost of their row (`C150_false`). -/
theorem C150_mirrored_interpolation_partial (tr tc : Bool) (w w' : World K) (user user' p p' mc mc' inp inp' l r l' r' f f' : Fields)
    (out out' : List (Written K)) (H W : Nat) (dRow dCol dRow' dCol' : Disp) (invalid invalid' : F K) (hw : Nat) (me : Measure)
    (ker : List (F K × F K) → F K) (wf : user.wf) (wf' : user'.wf)
    (hdisk : DiskContract w H W) (hpan : PandoraContract w) (hkeeps : PandoraKeeps w.pandora) (hzoom : w.run.zoom = zoomLinear)
    (hdisk' : DiskContract w' H W) (hpan' : PandoraContract w') (hkeeps' : PandoraKeeps w'.pandora) (hzoom' : w'.run.zoom = zoomLinear)
    (hext : w'.run.interp = w.run.interp) (hb : BoundsContract w.run.interp) (hs : Mirrors tr tc w.run.interp)
    (cfg : Interpolated w user p mc inp l r f H W dRow dCol 1 1 invalid 1 hw me ker)
    (cfg' : Interpolated w' user' p' mc' inp' l' r' f' H W dRow' dCol' 1 1 invalid' 1 hw me ker) (hk : OrderFree ker)
    (himg : ∀ left right left' right', ImagesRead w l r none left right → ImagesRead w' l' r' none left' right' →
      Mirrored tr tc left left' ∧ Mirrored tr tc right right')
    (hnd : ∀ left right, ImagesRead w l r none left right → right.noData ≠ .nan)
    (ir : MirroredIntervals tr tc tr dRow dRow' H W) (ic : MirroredIntervals tr tc tc dCol dCol' H W)
    (h : Main.main w user = (out, none)) (h' : Main.main w' user' = (out', none)) :
    ∃ files rest files' rest' left right, out = .rasters files :: rest ∧ out' = .rasters files' :: rest' ∧ ImagesRead w l r none left right ∧
      (∀ f ∈ [files.row, files.col, files.score, files'.row, files'.col, files'.score], f.h = H ∧ f.w = W) ∧
      ∀ a < H, ∀ b < W, SoleBest me hw ker left right dRow dCol a b → AllCosts hw ker left right dRow dCol a b →
        files'.row.values (turned tr H a) (turned tc W b) = opposedF tr (files.row.values a b) ∧
          files'.col.values (turned tr H a) (turned tc W b) = opposedF tc (files.col.values a b) ∧
          files'.score.values (turned tr H a) (turned tc W b) = files.score.values a b := by
  obtain ⟨s⟩ := interpolated_stages cfg wf hpan h
  obtain ⟨s'⟩ := interpolated_stages cfg' wf' hpan' h'
  obtain ⟨hn, im, ⟨sl, sr1⟩, o, z, ax, ay, fr, lr, fc, lc, gmin, gmax, ⟨x1, x2⟩, ⟨fy, fx⟩, hg, key⟩ := s.interpolated cfg wf hdisk hkeeps hb
  obtain ⟨-, im', ⟨sl', sr1'⟩, o', z', ax', ay', fr', lr', fc', lc', gmin', gmax', ⟨x1', x2'⟩, ⟨fy', fx'⟩, hg', key'⟩ :=
    s'.interpolated cfg' wf' hdisk' hkeeps' (by rw [hext]; exact hb)
  obtain ⟨tl, tr'⟩ := himg _ _ _ _ im im'
  have hnd1 := hnd _ _ im
  have hnd2 : s'.right.img.noData ≠ .nan := by rw [tr'.noData]; exact hnd1
  rw [hzoom] at key
  rw [hzoom', hext] at key'
  refine ⟨s.files, _, s'.files, _, s.left.img, s.right.img, s.outIs, s'.outIs, im, fun f hf => ?_, fun a ha b hb sole all => ?_⟩
  · have size : (∀ i, i < f.h ↔ i * 1 < H) ∧ ∀ j, j < f.w ↔ j * 1 < W := by
      simp only [List.mem_cons, List.not_mem_nil, or_false] at hf z z'
      rcases hf with q | q | q | q | q | q
      · exact z f (.inl q)
      · exact z f (.inr (.inl q))
      · exact z f (.inr (.inr q))
      · exact z' f (.inl q)
      · exact z' f (.inr (.inl q))
      · exact z' f (.inr (.inr q))
    simp only [mul_one] at size
    constructor
    · have := size.1 f.h; have := size.1 H; omega
    · have := size.2 f.w; have := size.2 W; omega
  obtain ⟨X, Y, ⟨⟨i1, i2⟩, i3, i4⟩, only⟩ := sole
  have ha' := (turned_turned (t := tr) ha).2
  have hb' := (turned_turned (t := tc) hb).2
  obtain ⟨r0, c0, s0, b1, p1⟩ := key a b _ _ (by omega) (by omega) ha hb
  obtain ⟨r1, c1, s1, b2, p2⟩ := key' _ _ _ _ (mul_one _).symm (mul_one _).symm ha' hb'
  obtain ⟨g1, g2⟩ := hg a ha b hb
  obtain ⟨g1', g2'⟩ := hg' _ ha' _ hb'
  obtain ⟨q1, q2⟩ := ends_opposed (ir a ha b hb) (by omega)
  obtain ⟨q3, q4⟩ := ends_opposed (ic a ha b hb) (by omega)
  obtain ⟨t1, t2⟩ := extent_mirrored sl sl' o o' ir (by omega) x1 x1'
  obtain ⟨t3, t4⟩ := extent_mirrored sl sl' o o' ic (by omega) x2 x2'
  obtain ⟨w1, w2⟩ := all.rows _ _ x1
  obtain ⟨w3, w4⟩ := all.cols _ _ x2
  have oint : ∀ (t : Bool) (z : Int), opposed t ((z : Int) : K) = ((opposed t z : Int) : K) := by
    intro t z
    cases t <;> simp [opposed]
  have hcost : ∀ x y : Int, initAt dCol a b - dCol.range - 3 ≤ y → y ≤ initAt dCol a b + dCol.range + 3 →
      Pandora.windowCost hw ker s.left.img (slabImg zoomLinear s.right.img 1 (x : K)) gmin gmax a b (y : K) =
        wholeCost hw ker s.left.img s.right.img a b x y := by
    intro x y h1 h2
    rw [slab_int, window_whole hnd1]
    rw [g1, g2]
    exact ⟨h1, h2⟩
  have hcost' : ∀ x y : Int, initAt dCol a b - dCol.range - 3 ≤ y → y ≤ initAt dCol a b + dCol.range + 3 →
      Pandora.windowCost hw ker s'.left.img (slabImg zoomLinear s'.right.img 1 (opposed tr (x : K))) gmin' gmax' (turned tr H a) (turned tc W b)
        (opposed tc (y : K)) = wholeCost hw ker s.left.img s.right.img a b x y := by
    intro x y h1 h2
    rw [oint, oint, slab_int, window_whole hnd2, wholeCost_mirrored hk tl tr' ⟨sl, sr1⟩ ⟨sl', sr1'⟩ ha hb]
    rw [g1', g2', q3, q4]
    cases tc
    · simp only [opposed, Bool.false_eq_true, if_false]; omega
    · simp only [opposed, if_true]; omega
  have ask : ∀ x y : K, AskedPair dRow dCol 1 (a : Int) (b : Int) x y → ∃ kx ky : Int, (x = kx ∧ y = ky) ∧ InIntervals dRow dCol a b kx ky := by
    rintro x y ⟨⟨kx, ky, hx, hy⟩, ⟨u1, u2⟩, u3, u4⟩
    rw [Nat.cast_one, mul_one] at hx hy
    subst hx hy
    exact ⟨kx, ky, ⟨rfl, rfl⟩, ⟨Int.cast_le.1 u1, Int.cast_le.1 u2⟩, Int.cast_le.1 u3, Int.cast_le.1 u4⟩
  have askXY : AskedPair dRow dCol 1 (a : Int) (b : Int) (X : K) (Y : K) :=
    ⟨⟨X, Y, by simp, by simp⟩, ⟨Int.cast_le.2 i1, Int.cast_le.2 i2⟩, Int.cast_le.2 i3, Int.cast_le.2 i4⟩
  have hXY := all.costs X Y (by omega) (by omega) (by omega) (by omega)
  obtain ⟨rfl, rfl⟩ := best_sole b1 askXY (by rw [hcost X Y (by omega) (by omega)]; exact hXY) fun x y q bt => by
    obtain ⟨kx, ky, ⟨rfl, rfl⟩, iv⟩ := ask x y q
    rw [hcost kx ky (by have := iv.2; omega) (by have := iv.2; omega), hcost X Y (by omega) (by omega)] at bt
    obtain ⟨rfl, rfl⟩ := only kx ky iv bt
    exact ⟨rfl, rfl⟩
  obtain ⟨rfl, rfl⟩ := best_sole b2 ((asked_mirrored ir ic ha hb _ _).1 askXY) (by rw [hcost' X Y (by omega) (by omega)]; exact hXY) fun x y q bt => by
    have q' : AskedPair dRow dCol 1 (a : Int) (b : Int) (opposed tr x) (opposed tc y) := by
      rw [asked_mirrored ir ic ha hb, opposed_twice, opposed_twice]
      exact q
    obtain ⟨kx, ky, ⟨e1, e2⟩, iv⟩ := ask _ _ q'
    rw [← opposed_twice tr x, ← opposed_twice tc y, e1, e2] at bt ⊢
    rw [hcost' kx ky (by have := iv.2; omega) (by have := iv.2; omega), hcost' X Y (by omega) (by omega)] at bt
    obtain ⟨rfl, rfl⟩ := only kx ky iv bt
    exact ⟨rfl, rfl⟩
  have anyRead : ∀ (d : Disp) (f l c e : Int), f = initAt d c e - d.range → l = initAt d c e + d.range → ∀ x : K, ReadDisp d f l c e x := by
    rintro d f l c e rfl rfl x
    unfold ReadDisp
    rcases lt_or_ge x ((initAt d c e - d.range : Int) : K) with u | u
    · exact .inr (.inl u)
    · rcases lt_or_ge ((initAt d c e + d.range : Int) : K) x with v | v
      · exact .inr (.inr v)
      · exact .inl ⟨u, v⟩
  have e : ∀ (t : Bool) (x : K), opposedF t (.fin x) = .fin (opposed t x) := by intro t x; cases t <;> rfl
  rw [← e tr (X : K), ← e tc (Y : K)] at p2
  refine interp_mirrored hs (lattice_mirrored hn fx fx' ?_ ?_) (lattice_mirrored hn fy fy' ?_ ?_) ⟨fx.pos, fy.pos⟩ fx.increasing fy.increasing
    (fun i hi j hj => ?_) p1 p2
  · rw [t3]; split_ifs <;> omega
  · rw [t4]; split_ifs <;> omega
  · rw [t1]; split_ifs <;> omega
  · rw [t2]; split_ifs <;> omega
  · obtain ⟨kx, hx, x5, x6⟩ := lattice_whole fy hj
    obtain ⟨ky, hy, y5, y6⟩ := lattice_whole fx hi
    refine ⟨⟨⟨anyRead _ _ _ _ _ w1 w2 _, anyRead _ _ _ _ _ w3 w4 _⟩, anyRead _ _ _ _ _ ?_ ?_ _, anyRead _ _ _ _ _ ?_ ?_ _⟩, ?_⟩
    · rw [t1, q1, w1, w2]
    · rw [t2, q2, w1, w2]
    · rw [t3, q3, w3, w4]
    · rw [t4, q4, w3, w4]
    · rw [hx, hy, hcost kx ky (by omega) (by omega), hcost' kx ky (by omega) (by omega)]
      exact ⟨all.costs kx ky (by omega) (by omega) (by omega) (by omega), rfl⟩

/-! ## Examples -/

/-- A surface which goes through the costs and is NaN elsewhere; the minimisation ends at the middle column and the last row of the bounds. -/
noncomputable def exMid : IExt ℚ where
  interp2d ax ay m := open Classical in .ok fun x y =>
    if (∃ i < ax.n, ax.get i = x) ∧ ∃ j < ay.n, ay.get j = y then m.get (whereIs ay y) (whereIs ax x) else .nan
  minimize _ _ b := ((b.1.1 + b.1.2) / 2, b.2.2)

theorem exMid_bounds : BoundsContract exMid := fun _ _ b h1 h2 => by
  refine ⟨?_, ?_, h2, le_refl _⟩ <;> simp only [exMid] <;> linarith

/-- This surface and this minimisation do not distinguish left and right. -/
theorem exMid_mirrors : Mirrors false true exMid := by
  refine ⟨fun ax ay ax' ay' m m' f h1 h2 hx hy _ _ h hf => ?_, fun f a b bx byy => ?_⟩
  · simp only [exMid, Except.ok.injEq] at hf ⊢
    subst hf
    obtain ⟨x1, x2⟩ := id hx
    obtain ⟨y1, y2⟩ := id hy
    have inc : ∀ i j, i < j → j < ax'.n → ax'.get i < ax'.get j := by
      intro i j hij hj
      rw [x1] at hj
      have e1 := x2 (ax.n - 1 - i) (by omega)
      have e2 := x2 (ax.n - 1 - j) (by omega)
      simp only [turned, opposed, if_true] at e1 e2
      rw [show ax.n - 1 - (ax.n - 1 - i) = i by omega] at e1
      rw [show ax.n - 1 - (ax.n - 1 - j) = j by omega] at e2
      rw [e1, e2]
      exact neg_lt_neg (h1.2 _ _ (by omega) (by omega))
    have incy : ∀ i j, i < j → j < ay'.n → ay'.get i < ay'.get j := by
      intro i j hij hj
      rw [y1] at hj
      have e1 := y2 i (by omega)
      have e2 := y2 j hj
      simp only [turned, opposed, Bool.false_eq_true, if_false] at e1 e2
      rw [e1, e2]
      exact h2.2 _ _ hij hj
    have ex : ∀ x, (∃ i < ax'.n, ax'.get i = x) ↔ ∃ i < ax.n, ax.get i = opposed true x := by
      intro x
      constructor
      · rintro ⟨i, hi, rfl⟩
        rw [x1] at hi
        refine ⟨turned true ax.n i, (turned_turned hi).2, ?_⟩
        have := x2 _ (turned_turned (t := true) hi).2
        rw [(turned_turned hi).1] at this
        rw [this, opposed_twice]
      · rintro ⟨i, hi, e⟩
        refine ⟨turned true ax.n i, by rw [x1]; exact (turned_turned hi).2, ?_⟩
        rw [x2 i hi, e, opposed_twice]
    have ey : ∀ y, (∃ j < ay'.n, ay'.get j = y) ↔ ∃ j < ay.n, ay.get j = opposed false y := by
      intro y
      constructor
      · rintro ⟨j, hj, rfl⟩
        rw [y1] at hj
        exact ⟨j, hj, (y2 j hj).symm⟩
      · rintro ⟨j, hj, e⟩
        exact ⟨j, by omega, (y2 j hj).trans e⟩
    funext x y
    dsimp only
    by_cases hq : (∃ i < ax'.n, ax'.get i = x) ∧ ∃ j < ay'.n, ay'.get j = y
    · have hq' := hq
      rw [ex, ey] at hq'
      rw [if_pos hq, if_pos hq']
      obtain ⟨⟨i, hi, e1⟩, ⟨j, hj, e2⟩⟩ := hq'
      have w1 : whereIs ax (opposed true x) = i := by rw [← e1]; exact whereIs_get ax h1.2 i hi
      have w2 : whereIs ay (opposed false y) = j := by rw [← e2]; exact whereIs_get ay h2.2 j hj
      have w3 : whereIs ax' x = turned true ax.n i := by
        have : ax'.get (turned true ax.n i) = x := by rw [x2 i hi, e1, opposed_twice]
        rw [← this]
        exact whereIs_get ax' inc _ (by rw [x1]; exact (turned_turned hi).2)
      have w4 : whereIs ay' y = turned false ay.n j := by
        have : ay'.get (turned false ay.n j) = y := by rw [y2 j hj, e2, opposed_twice]
        rw [← this]
        exact whereIs_get ay' incy _ (by rw [y1]; exact (turned_turned hj).2)
      rw [w1, w2, w3, w4]
      exact h j hj i hi
    · have hq' := hq
      rw [ex, ey] at hq'
      rw [if_neg hq, if_neg hq']
  · simp only [exMid, opposedPair, opposed, Bool.false_eq_true, if_true, if_false, Prod.map_apply, Prod.mk.injEq, and_true]
    ring

/-- Windows of one pixel compared by `sad`, on images of eight rows and eight columns, with this interpolation. -/
noncomputable def exWorldMid (fl fr : Nat → Nat → F ℚ) : World ℚ :=
  { exWorldBoxI fl fr with run := { (exWorldBoxI fl fr).run with interp := exMid } }

theorem exWorldMid_contract (fl fr : Nat → Nat → F ℚ) : RunContract (exWorldMid fl fr) 8 8 := by
  obtain ⟨⟨d1, d2, d3, d4, d5⟩, ⟨p1, p2⟩, k, r, a, o, -, s⟩ := exWorldBoxI_contract fl fr
  refine ⟨⟨d1, d2, d3, d4, d5⟩, ⟨p1, p2⟩, k, r, a, o, fun x y m _ _ => ⟨_, rfl, fun hx hy i hi j hj => ?_⟩, s⟩
  rw [if_pos ⟨⟨i, hi, rfl⟩, j, hj, rfl⟩, whereIs_get x hx i hi, whereIs_get y hy j hj]

theorem exMid_cfg (fl fr : Nat → Nat → F ℚ) :
    ∃ p mc inp f, Interpolated (exWorldMid fl fr) (exUserInterpFull 0 0) p mc inp exL exR f 8 8 ⟨.const 0, 0⟩ ⟨.const 0, 0⟩ 1 1 .nan 1 0 .min sad :=
  ⟨_, _, _, _, rfl, rfl, rfl, rfl, rfl, rfl, rfl, rfl, rfl,
    ⟨_, _, _, _, _, .int 1, rfl, rfl, rfl, .inl rfl, rfl, rfl⟩,
    ⟨⟨_, rfl, ⟨_, _, _, rfl, rfl, rfl, .inl rfl, .inl ⟨_, .inl rfl, rfl⟩⟩, ⟨_, _, _, rfl, rfl, rfl, .inl rfl, .inl ⟨_, .inl rfl, rfl⟩⟩⟩,
    .inr ⟨rfl, rfl, rfl, rfl, rfl⟩,
    ⟨_, _, _, rfl, rfl, rfl, .inl ⟨_, _, rfl, .inl rfl, .inl rfl⟩, .inl ⟨_, rfl, .inr (.inr (.inl ⟨rfl, rfl⟩))⟩⟩⟩⟩

theorem exMid_runs (fl fr : Nat → Nat → F ℚ) :
    Main.main (exWorldMid fl fr) (exUserInterpFull 0 0) = ((Main.main (exWorldMid fl fr) (exUserInterpFull 0 0)).1, none) := by
  have : (Main.main (exWorldMid fl fr) (exUserInterpFull 0 0)).2 = none := by
    obtain ⟨m, cfg, h⟩ := accepted_ok (w := exWorldEight) (user := exUserInterpFull 0 0) (by decide +kernel)
    refine C81_accepted_runs_partial (exWorldMid fl fr) _ _ _ cfg m 8 8 0 7 0 7 1 1 (exUserInterpFull_wf 0 0)
      (exWorldMid_contract fl fr) rfl (by decide) rfl (.inl ⟨_, _, rfl, .inl rfl, .inl rfl⟩) (.inr ⟨rfl, rfl, rfl, rfl, rfl⟩) (by omega) ?_ ?_
      (.inl ⟨rfl, rfl⟩) h
    · intro he
      exact absurd rfl he
    · intro v hv
      have : v = exInterp := (Option.some.inj hv).symm
      subst this
      exact ⟨_, rfl, .inl rfl⟩
  exact Prod.ext rfl this

theorem exMid_images {fl fr : Nat → Nat → F ℚ} {left right : Img ℚ} (h : ImagesRead (exWorldMid fl fr) exL exR none left right) :
    left = exImgEight fl ∧ right = exImgEight fr := by
  obtain ⟨lj, rj, q1, q2, h1, h2⟩ := h
  have k1 := q1 "img" (.str "left.tif") rfl rfl
  have k2 := q2 "img" (.str "right.tif") rfl rfl
  simp only [exWorldMid, exWorldBoxI, Except.ok.injEq] at h1 h2
  subst h1 h2
  constructor
  · rw [if_pos]
    simp [isLeftSection, k1, readValue]
  · rw [if_neg]
    simp [isLeftSection, k2, readValue]

theorem exEight_mirrored (f f' : Nat → Nat → F ℚ) (h : ∀ x y, y < 8 → f' x (7 - y) = f x y) : Mirrored false true (exImgEight f) (exImgEight f') :=
  ⟨rfl, fun x _ y hy => h x y hy, fun _ _ _ _ => rfl, fun _ _ _ _ => rfl⟩

/-- The costs of the pixel of row 3 and column `b` are the values of the right image around it, but where it holds no data. -/
theorem exEight_costs (ρ : Nat → Nat → ℚ) (b : Nat) (hb : b = 3 ∨ b = 4) (x y : Int) (hx : -3 ≤ x ∧ x ≤ 3) (hy : -3 ≤ y ∧ y ≤ 3) :
    wholeCost 0 sad (exImgEight fun _ _ => .fin 0) (exImgEight (exNumbers ρ)) 3 b x y =
      if ρ (3 + x).toNat (b + y).toNat = -1 then .nan else .fin |ρ (3 + x).toNat (b + y).toNat| := by
  unfold wholeCost
  split_ifs with h1 h2 h2
  · obtain ⟨⟨-, u1, u2, u3, u4⟩, -, -, v⟩ := h1
    refine absurd ?_ (v (3 + x).toNat (b + y).toNat (by push_cast; omega) (by push_cast; omega) (by push_cast; omega) (by push_cast; omega))
    simp [exImgEight, exNumbers, exLeftImg, h2]
  · simp [wholePairs, exImgEight, exNumbers, sad, sumOf, F.add]
  · rfl
  · refine absurd ⟨?_, fun _ _ _ _ _ _ => rfl, rfl, fun x' y' u1 u2 u3 u4 => ?_⟩ h1
    · simp only [BothInside, exImgEight]
      omega
    · push_cast at u1 u2 u3 u4
      rw [show x' = (3 + x).toNat by omega, show y' = (b + y).toNat by omega]
      simpa [exImgEight, exNumbers, exLeftImg] using h2

/-- Whatever the numbers of the right image, which has no no-data pixel: the pixel of row 3 and column 3 of these images, and its mirror. -/
example (ρ : Nat → Nat → ℚ) (hρ : ∀ x y, ρ x y ≠ -1) : ∃ files rest files' rest',
    Main.main (exWorldMid (fun _ _ => .fin 0) (exNumbers ρ)) (exUserInterpFull 0 0) = (.rasters files :: rest, none) ∧
    Main.main (exWorldMid (fun _ _ => .fin 0) (exNumbers fun x y => ρ x (7 - y))) (exUserInterpFull 0 0) = (.rasters files' :: rest', none) ∧
    files'.row.values 3 4 = files.row.values 3 3 ∧ files'.col.values 3 4 = F.neg (files.col.values 3 3) ∧
      files'.score.values 3 4 = files.score.values 3 3 := by
  obtain ⟨_, _, _, _, cfg⟩ := exMid_cfg (fun _ _ => .fin 0) (exNumbers ρ)
  obtain ⟨_, _, _, _, cfg'⟩ := exMid_cfg (fun _ _ => .fin 0) (exNumbers fun x y => ρ x (7 - y))
  have ct := exWorldMid_contract (fun _ _ => .fin 0) (exNumbers ρ)
  have ct' := exWorldMid_contract (fun _ _ => .fin 0) (exNumbers fun x y => ρ x (7 - y))
  have h1 := exMid_runs (fun _ _ => .fin 0) (exNumbers ρ)
  have h2 := exMid_runs (fun _ _ => .fin 0) (exNumbers fun x y => ρ x (7 - y))
  obtain ⟨files, rest, files', rest', left, right, o, o', im, -, key⟩ := C150_mirrored_interpolation_partial false true _ _ _ _ _ _ _ _ _ _ _ _ _ _
    _ _ _ _ 8 8 _ _ _ _ _ _ _ _ _ (exUserInterpFull_wf 0 0) (exUserInterpFull_wf 0 0) ct.disk ct.pandora ct.keeps rfl ct'.disk ct'.pandora ct'.keeps
    rfl rfl exMid_bounds exMid_mirrors cfg cfg' (sumOf_orderFree _) (fun left right left' right' i i' => by
      obtain ⟨rfl, rfl⟩ := exMid_images i
      obtain ⟨rfl, rfl⟩ := exMid_images i'
      refine ⟨exEight_mirrored _ _ fun _ _ _ => rfl, exEight_mirrored _ _ fun x y hy => ?_⟩
      show F.fin (ρ x (7 - (7 - y))) = F.fin (ρ x y)
      rw [show 7 - (7 - y) = y by omega]) (fun left right i => by
      obtain ⟨rfl, rfl⟩ := exMid_images i
      simp [exImgEight, exLeftImg]) (fun _ _ _ _ z => by simp [initAt, opposed]) (fun _ _ _ _ z => by simp only [initAt, opposed, if_true]; omega) h1 h2
  obtain ⟨rfl, rfl⟩ := exMid_images im
  refine ⟨files, rest, files', rest', by rw [h1]; exact congrArg (·, none) o, by rw [h2]; exact congrArg (·, none) o',
    key 3 (by decide) 3 (by decide) ⟨0, 0, by simp [InIntervals, initAt], fun x y q _ => ?_⟩
      ⟨fun _ _ h => extent_const h, fun _ _ h => extent_const h, fun x y u1 u2 u3 u4 => ?_⟩⟩
  · simp only [InIntervals, initAt] at q
    omega
  · simp only [initAt] at u1 u2 u3 u4
    rw [exEight_costs ρ 3 (.inl rfl) x y (by omega) (by omega), if_neg (hρ _ _)]
    simp

/-! ### Counterexample -/

/-- The full statement of C150: the disparities are opposed at every pixel where one pair of disparities is better than the others. -/
def C150Statement : Prop :=
  ∀ (tr tc : Bool) (w w' : World ℚ) (user user' p p' mc mc' inp inp' l r l' r' f f' : Fields) (out out' : List (Written ℚ))
    (H W : Nat) (dRow dCol dRow' dCol' : Disp) (invalid invalid' : F ℚ) (hw : Nat) (me : Measure) (ker : List (F ℚ × F ℚ) → F ℚ),
    user.wf → user'.wf → DiskContract w H W → PandoraContract w → PandoraKeeps w.pandora → w.run.zoom = zoomLinear →
    DiskContract w' H W → PandoraContract w' → PandoraKeeps w'.pandora → w'.run.zoom = zoomLinear →
    w'.run.interp = w.run.interp → BoundsContract w.run.interp → Mirrors tr tc w.run.interp →
    Interpolated w user p mc inp l r f H W dRow dCol 1 1 invalid 1 hw me ker →
    Interpolated w' user' p' mc' inp' l' r' f' H W dRow' dCol' 1 1 invalid' 1 hw me ker → OrderFree ker →
    (∀ left right left' right', ImagesRead w l r none left right → ImagesRead w' l' r' none left' right' →
      Mirrored tr tc left left' ∧ Mirrored tr tc right right') →
    (∀ left right, ImagesRead w l r none left right → right.noData ≠ .nan) →
    MirroredIntervals tr tc tr dRow dRow' H W → MirroredIntervals tr tc tc dCol dCol' H W →
    Main.main w user = (out, none) → Main.main w' user' = (out', none) →
    ∃ files rest files' rest' left right, out = .rasters files :: rest ∧ out' = .rasters files' :: rest' ∧ ImagesRead w l r none left right ∧
      ∀ a < H, ∀ b < W, SoleBest me hw ker left right dRow dCol a b →
        files'.row.values (turned tr H a) (turned tc W b) = opposedF tr (files.row.values a b) ∧
          files'.col.values (turned tr H a) (turned tc W b) = opposedF tc (files.col.values a b) ∧
          files'.score.values (turned tr H a) (turned tc W b) = files.score.values a b

/-- The missing cost of the pixel of row 3 and column `b` takes the last value of its row. -/
theorem exGap_pixel {ρ : Nat → Nat → ℚ} {b : Nat} (hb : b = 3 ∨ b = 4) (hρ : ∀ x y, ρ x y = -1 ↔ x = 6 ∧ y = b) {p mc inp f : Fields}
    {out : List (Written ℚ)}
    (cfg : Interpolated (exWorldMid (fun _ _ => .fin 0) (exNumbers ρ)) (exUserInterpFull 0 0) p mc inp exL exR f 8 8 ⟨.const 0, 0⟩ ⟨.const 0, 0⟩ 1 1
      .nan 1 0 .min sad) (h : Main.main (exWorldMid (fun _ _ => .fin 0) (exNumbers ρ)) (exUserInterpFull 0 0) = (out, none)) :
    ∃ files rest, out = .rasters files :: rest ∧ files.score.values 3 b = .fin |ρ 6 (b + 3)| := by
  have ct := exWorldMid_contract (fun _ _ => .fin 0) (exNumbers ρ)
  obtain ⟨s⟩ := interpolated_stages cfg (exUserInterpFull_wf 0 0) ct.pandora h
  obtain ⟨hn, im, -, -, -, ax, ay, fr, lr, fc, lc, gmin, gmax, ⟨x1, x2⟩, ⟨fy, fx⟩, hg, key⟩ :=
    s.interpolated cfg (exUserInterpFull_wf 0 0) ct.disk ct.keeps exMid_bounds
  obtain ⟨rfl, rfl⟩ := extent_const x1
  obtain ⟨rfl, rfl⟩ := extent_const x2
  obtain ⟨i1, i2⟩ := exMid_images im
  obtain ⟨r0, c0, s0, -, p1⟩ := key 3 b 3 b rfl (by omega) (by decide) (by omega)
  obtain ⟨g1, g2⟩ := hg 3 (by decide) b (by omega)
  simp only [initAt] at g1 g2
  have size : ∀ b : Arr1 ℚ, FullLattice b (0 - 0 - 3) (0 + 0 + 3) 1 → b.n = 7 ∧ ∀ i < b.n, b.get i = (((i : Int) - 3 : Int) : ℚ) := by
    intro b hb
    have e := lattice_get hb (b.n - 1) (by have := hb.pos; omega)
    rw [hb.last] at e
    have := hb.pos
    have e' : ((b.n : ℚ)) = 7 := by
      rw [Nat.cast_sub (by omega)] at e
      norm_num at e
      linarith
    refine ⟨by exact_mod_cast e', fun i hi => ?_⟩
    rw [lattice_get hb i hi]
    push_cast
    norm_num
    ring
  obtain ⟨nx, gx⟩ := size ax fx
  obtain ⟨ny, gy⟩ := size ay fy
  rw [nx] at gx
  rw [ny] at gy
  have anyRead : ∀ x : ℚ, ReadDisp ⟨.const 0, 0⟩ (0 - 0) (0 + 0) ((3 : Nat) : Int) ((b : Nat) : Int) x := by
    intro x
    unfold ReadDisp
    simp only [initAt, sub_zero, add_zero, Int.cast_zero]
    rcases lt_trichotomy x 0 with u | u | u
    · exact .inr (.inl u)
    · exact .inl ⟨u.ge, u.le⟩
    · exact .inr (.inr u)
  have hz : (exWorldMid (fun _ _ => .fin 0) (exNumbers ρ)).run.zoom = zoomLinear := rfl
  have he : (exWorldMid (fun _ _ => .fin 0) (exNumbers ρ)).run.interp = exMid := rfl
  have cost : ∀ j < 7, ∀ i < 7, Pandora.windowCost 0 sad s.left.img (slabImg zoomLinear s.right.img 1 (ay.get j)) gmin gmax 3 b (ax.get i) =
      if j = 6 ∧ i = 3 then .nan else .fin |ρ j (b + i - 3)| := by
    intro j hj i hi
    rw [gx i hi, gy j hj, slab_int, i1, i2, window_whole (by simp [exImgEight, exLeftImg]) (by omega), exEight_costs ρ b hb _ _ (by omega) (by omega),
      show (3 + ((j : Int) - 3)).toNat = j by omega, show ((b : Int) + ((i : Int) - 3)).toNat = b + i - 3 by omega]
    simp only [hρ, show b + i - 3 = b ↔ i = 3 by omega]
  rw [hz, he] at p1
  obtain ⟨m, F, x, y, -, m2, m3, m4, m5, -, -, m8⟩ := p1.minimised ⟨0, by omega, 0, by omega, ⟨anyRead _, anyRead _⟩, by
    rw [cost 0 (by decide) 0 (by decide)]; simp⟩
  rw [nx, ny] at m2 m3
  have v66 : m.get 6 6 = .fin |ρ 6 (b + 3)| := by
    have := m2 6 (by decide) 6 (by decide) ⟨anyRead _, anyRead _⟩ (by rw [cost 6 (by decide) 6 (by decide)]; simp)
    rw [this, cost 6 (by decide) 6 (by decide)]
    simp [toMinimise]
  have v63 : m.get 6 3 = .fin |ρ 6 (b + 3)| := by
    rw [← v66]
    have kn : ∀ q : Nat × Nat, (q.1 < 7 ∧ q.2 < 7) → Pandora.windowCost 0 sad s.left.img (slabImg zoomLinear s.right.img 1 (ay.get q.1)) gmin gmax 3 b
        (ax.get q.2) ≠ .nan → ¬ (q.1 = 6 ∧ q.2 = 3) := by
      intro q hq hne e
      rw [cost q.1 hq.1 q.2 hq.2, if_pos e] at hne
      exact hne rfl
    refine (m3 3 (by decide) 6 (by decide) (fun q => kn (6, 3) (by decide) q.2 ⟨rfl, rfl⟩)).below (fun q hq => ?_) (6, 6) ⟨?_, fun q hq => ?_⟩
    · have := hq.1.1
      omega
    · exact ⟨by decide, ⟨anyRead _, anyRead _⟩, by rw [cost 6 (by decide) 6 (by decide)]; simp⟩
    · obtain ⟨u1, u2⟩ := hq.1
      simp only [rank]
      omega
  refine ⟨s.files, _, s.outIs, ?_⟩
  have wx : whereIs ax (ax.get 3) = 3 := whereIs_get ax fx.increasing 3 (by omega)
  have wy : whereIs ay (ay.get 6) = 6 := whereIs_get ay fy.increasing 6 (by omega)
  have mid : (ax.get 0 + ax.get 6) / 2 = ax.get 3 := by
    rw [gx 0 (by decide), gx 6 (by decide), gx 3 (by decide)]
    norm_num
  simp only [exMid, Except.ok.injEq] at m4
  simp only [exMid, nx, ny, Nat.reduceSub, mid, Prod.mk.injEq] at m5
  obtain ⟨rfl, rfl⟩ := m5
  rw [m8, ← m4]
  dsimp only
  rw [if_pos ⟨⟨3, by omega, rfl⟩, 6, by omega, rfl⟩]
  simp only [wx, wy, v63]
  simp [OpticalFlow.fabs]

/-- A right image with one no-data pixel at row 6 and column 3. -/
def exGap (x y : Nat) : ℚ := if x = 6 ∧ y = 3 then -1 else if x = 6 ∧ y = 6 then 1 else if x = 6 ∧ y = 0 then 2 else 0

/-- The full statement is false: a missing cost takes the last value of its row, which is the first one once the images are mirrored. -/
theorem C150_false : ¬ C150Statement := by
  intro hst
  have hρ : ∀ x y, exGap x y = -1 ↔ x = 6 ∧ y = 3 := by
    intro x y
    unfold exGap
    split_ifs with h1 h2 h3
    · simp [h1]
    · simp only [h1, iff_false]; norm_num
    · simp only [h1, iff_false]; norm_num
    · simp only [h1, iff_false]; norm_num
  have hρ' : ∀ x y, (fun x y => exGap x (7 - y)) x y = -1 ↔ x = 6 ∧ y = 4 := fun x y => (hρ x (7 - y)).trans (by omega)
  obtain ⟨_, _, _, _, cfg⟩ := exMid_cfg (fun _ _ => .fin 0) (exNumbers exGap)
  obtain ⟨_, _, _, _, cfg'⟩ := exMid_cfg (fun _ _ => .fin 0) (exNumbers fun x y => exGap x (7 - y))
  have ct := exWorldMid_contract (fun _ _ => .fin 0) (exNumbers exGap)
  have ct' := exWorldMid_contract (fun _ _ => .fin 0) (exNumbers fun x y => exGap x (7 - y))
  have h1 := exMid_runs (fun _ _ => .fin 0) (exNumbers exGap)
  have h2 := exMid_runs (fun _ _ => .fin 0) (exNumbers fun x y => exGap x (7 - y))
  obtain ⟨files, rest, files', rest', left, right, o, o', im, key⟩ := hst false true _ _ _ _ _ _ _ _ _ _ _ _ _ _
    _ _ _ _ 8 8 _ _ _ _ _ _ _ _ _ (exUserInterpFull_wf 0 0) (exUserInterpFull_wf 0 0) ct.disk ct.pandora ct.keeps rfl ct'.disk ct'.pandora ct'.keeps
    rfl rfl exMid_bounds exMid_mirrors cfg cfg' (sumOf_orderFree _) (fun left right left' right' i i' => by
      obtain ⟨rfl, rfl⟩ := exMid_images i
      obtain ⟨rfl, rfl⟩ := exMid_images i'
      refine ⟨exEight_mirrored _ _ fun _ _ _ => rfl, exEight_mirrored _ _ fun x y hy => ?_⟩
      show F.fin (exGap x (7 - (7 - y))) = F.fin (exGap x y)
      rw [show 7 - (7 - y) = y by omega]) (fun left right i => by
      obtain ⟨rfl, rfl⟩ := exMid_images i
      simp [exImgEight, exLeftImg]) (fun _ _ _ _ z => by simp [initAt, opposed]) (fun _ _ _ _ z => by simp only [initAt, opposed, if_true]; omega) h1 h2
  obtain ⟨fs, _, w1, w2⟩ := exGap_pixel (.inl rfl) hρ cfg h1
  obtain ⟨fs', _, w1', w2'⟩ := exGap_pixel (.inr rfl) hρ' cfg' h2
  have e1 := o.symm.trans w1
  have e2 := o'.symm.trans w1'
  simp only [List.cons.injEq, Written.rasters.injEq] at e1 e2
  obtain ⟨rfl, -⟩ := e1
  obtain ⟨rfl, -⟩ := e2
  have v := (key 3 (by decide) 3 (by decide) ⟨0, 0, by simp [InIntervals, initAt], fun x y q _ => by
    simp only [InIntervals, initAt] at q
    omega⟩).2.2
  rw [show turned false 8 3 = 3 from rfl, show turned true 8 3 = 4 from rfl, w2, w2'] at v
  simp [exGap] at v

end Verif.Props
