import Verif.Spec.InterpLocal
import Verif.Props.InterpAgainst
import Verif.Props.Dichotomised
import Verif.Props.NoDataRefined
import Mathlib.Data.Finset.Max
import Mathlib.Data.Finset.Prod

/-!
# C143: the part of the images a pixel refined by an interpolation depends on
-/

namespace Verif.Props

open Verif Verif.Config Verif.Machine Verif.ImgTools Verif.MatchingCost Verif.Disparity Verif.Run Verif.Main Verif.Spec Verif.Save

set_option linter.unusedSectionVars false

variable {K : Type} [Field K] [LinearOrder K] [IsStrictOrderedRing K] [FloorRing K]

/-- The values given to the missing cells are determined by the known ones. -/
theorem filled_unique {h w : Nat} {known : Nat × Nat → Prop} (hk : ∀ p, known p → p.1 < h ∧ p.2 < w) (hex : ∃ p, known p) {m m' : Nat → Nat → F K}
    (hm : ∀ p, known p → m p.1 p.2 = m' p.1 p.2) {j : Nat} {v v' : F K} (a : RowFilled w known m j v) (b : RowFilled w known m' j v') : v = v' := by
  classical
  have first : ∀ S : Nat × Nat → Prop, (∀ p, S p → known p) → (∃ p, S p) → ∃ p, FirstOf w S p := by
    intro S hS ⟨p, hp⟩
    obtain ⟨q, hq, hmin⟩ := Finset.exists_min_image (((Finset.range h) ×ˢ (Finset.range w)).filter S) (rank w)
      ⟨p, by simp only [Finset.mem_filter, Finset.mem_product, Finset.mem_range]; exact ⟨hk p (hS p hp), hp⟩⟩
    rw [Finset.mem_filter] at hq
    exact ⟨q, hq.2, fun r hr => hmin r (by simp only [Finset.mem_filter, Finset.mem_product, Finset.mem_range]; exact ⟨hk r (hS r hr), hr⟩)⟩
  have last : ∀ S : Nat × Nat → Prop, (∀ p, S p → known p) → (∃ p, S p) → ∃ p, LastOf w S p := by
    intro S hS ⟨p, hp⟩
    obtain ⟨q, hq, hmin⟩ := Finset.exists_max_image (((Finset.range h) ×ˢ (Finset.range w)).filter S) (rank w)
      ⟨p, by simp only [Finset.mem_filter, Finset.mem_product, Finset.mem_range]; exact ⟨hk p (hS p hp), hp⟩⟩
    rw [Finset.mem_filter] at hq
    exact ⟨q, hq.2, fun r hr => hmin r (by simp only [Finset.mem_filter, Finset.mem_product, Finset.mem_range]; exact ⟨hk r (hS r hr), hr⟩)⟩
  by_cases h1 : ∃ p, known p ∧ p.1 ≤ j
  · by_cases h2 : ∃ p, known p ∧ j < p.1
    · obtain ⟨p, hp⟩ := last _ (fun _ h => h.1) h1
      obtain ⟨q, hq⟩ := first _ (fun _ h => h.1) h2
      rw [a.between p q hp hq, b.between p q hp hq, hm p hp.1.1, hm q hq.1.1]
    · push Not at h2
      obtain ⟨p, hp⟩ := last known (fun _ h => h) hex
      rw [a.below h2 p hp, b.below h2 p hp, hm p hp.1]
  · push Not at h1
    obtain ⟨p, hp⟩ := first known (fun _ h => h) hex
    rw [a.above h1 p hp, b.above h1 p hp, hm p hp.1]

/-- The elements of an axis. -/
theorem lattice_get {b : Arr1 K} {x y : Int} {n : Nat} (hb : FullLattice b x y n) (i : Nat) (hi : i < b.n) : b.get i = (x : K) + (i : K) / (n : K) := by
  induction i with
  | zero => rw [hb.first]; simp
  | succ i ih =>
    rw [hb.spacing i hi, ih (by omega)]
    push_cast
    ring

theorem lattice_points {b : Arr1 K} {x y : Int} {n : Nat} (hn : 0 < n) (hb : FullLattice b x y n) {i : Nat} (hi : i < b.n) :
    ∃ k : Int, b.get i * (n : K) = (k : K) := by
  have h0 : (n : K) ≠ 0 := Nat.cast_ne_zero.2 (by omega)
  refine ⟨x * n + i, ?_⟩
  rw [lattice_get hb i hi, add_mul, div_mul_cancel₀ _ h0]
  push_cast
  rfl

/-- Two axes with the same first and last disparities and the same subpixel factor. -/
theorem lattice_same {a a' : Arr1 K} {x y : Int} {n : Nat} (hn : 0 < n) (h : FullLattice a x y n) (h' : FullLattice a' x y n) : SameAxis a a' := by
  have h0 : (0 : K) < n := Nat.cast_pos.2 hn
  have p1 := h.pos
  have p2 := h'.pos
  have e : ((a'.n - 1 : Nat) : K) = ((a.n - 1 : Nat) : K) := by
    have e1 := (lattice_get h (a.n - 1) (by omega)).symm.trans h.last
    have e2 := (lattice_get h' (a'.n - 1) (by omega)).symm.trans h'.last
    have := add_left_cancel (e2.trans e1.symm)
    rwa [div_left_inj' h0.ne'] at this
  have e' : a'.n - 1 = a.n - 1 := by exact_mod_cast e
  have en : a'.n = a.n := by omega
  exact ⟨en, fun i hi => by rw [lattice_get h i hi, lattice_get h' i (by omega)]⟩

/-- One pixel of two executions with an interpolation, from the same pair and with the same costs. -/
theorem interp_same {e : Interpolation.IExt K} {me : Measure} {read read' : K → K → Prop} {cost cost' : K → K → F K} {ax ay ax' ay' : Arr1 K}
    {r0 c0 row col score row' col' score' : F K} (he : ReadsInside e) (hx : SameAxis ax ax') (hy : SameAxis ay ay') (h0 : 0 < ax.n ∧ 0 < ay.n)
    (hr : ∀ i < ax.n, ∀ j < ay.n, (read (ay.get j) (ax.get i) ↔ read' (ay.get j) (ax.get i)) ∧ cost' (ay.get j) (ax.get i) = cost (ay.get j) (ax.get i))
    (h : InterpPixel e me read cost ax ay r0 c0 row col score) (h' : InterpPixel e me read' cost' ax' ay' r0 c0 row' col' score') :
    row' = row ∧ col' = col ∧ score' = score := by
  obtain ⟨x1, x2⟩ := hx
  obtain ⟨y1, y2⟩ := hy
  have cell : ∀ i < ax.n, ∀ j < ay.n, (read' (ay'.get j) (ax'.get i) ∧ cost' (ay'.get j) (ax'.get i) ≠ .nan ↔
      read (ay.get j) (ax.get i) ∧ cost (ay.get j) (ax.get i) ≠ .nan) := by
    intro i hi j hj
    rw [x2 i hi, y2 j hj, (hr i hi j hj).2, (hr i hi j hj).1]
  by_cases hex : ∃ i < ax.n, ∃ j < ay.n, read (ay.get j) (ax.get i) ∧ cost (ay.get j) (ax.get i) ≠ .nan
  · obtain ⟨m, f, x, y, m1, m2, m3, m4, m5, m6, m7, m8⟩ := h.minimised hex
    obtain ⟨i0, hi0, j0, hj0, q⟩ := hex
    obtain ⟨m', f', x', y', m1', m2', m3', m4', m5', m6', m7', m8'⟩ := h'.minimised
      ⟨i0, by omega, j0, by omega, (cell i0 hi0 j0 hj0).2 q⟩
    rw [x1, y1] at m1' m2' m3'
    set known : Nat × Nat → Prop := fun p => (p.1 < ay.n ∧ p.2 < ax.n) ∧ read (ay.get p.1) (ax.get p.2) ∧ cost (ay.get p.1) (ax.get p.2) ≠ .nan
      with hk
    have ek : (fun p : Nat × Nat => (p.1 < ay.n ∧ p.2 < ax.n) ∧ read' (ay'.get p.1) (ax'.get p.2) ∧ cost' (ay'.get p.1) (ax'.get p.2) ≠ .nan) =
        known := by
      funext p
      exact propext (and_congr_right fun q => cell p.2 q.2 p.1 q.1)
    have eq : ∀ p, known p → m'.get p.1 p.2 = m.get p.1 p.2 := by
      rintro p ⟨⟨q1, q2⟩, q3, q4⟩
      obtain ⟨q5, q6⟩ := (cell p.2 q2 p.1 q1).2 ⟨q3, q4⟩
      rw [m2' p.2 q2 p.1 q1 q5 q6, m2 p.2 q2 p.1 q1 q3 q4, x2 p.2 q2, y2 p.1 q1, (hr p.2 q2 p.1 q1).2]
    have all : ∀ j < ay.n, ∀ i < ax.n, m'.get j i = m.get j i := by
      intro j hj i hi
      by_cases hq : read (ay.get j) (ax.get i) ∧ cost (ay.get j) (ax.get i) ≠ .nan
      · exact eq (j, i) ⟨⟨hj, hi⟩, hq⟩
      · have t' := m3' i hi j hj (fun q => hq ((cell i hi j hj).1 q))
        rw [ek] at t'
        exact filled_unique (fun p hp => hp.1) ⟨(j0, i0), ⟨hj0, hi0⟩, q⟩ eq t' (m3 i hi j hj hq)
    have ef := he ax ay ax' ay' m m' ⟨x1, x2⟩ ⟨y1, y2⟩ h0.1 h0.2 m1 m1' all
    rw [m4, m4', Except.ok.injEq] at ef
    subst ef
    rw [x1, y1, x2 0 h0.1, y2 0 h0.2, x2 (ax.n - 1) (by omega), y2 (ay.n - 1) (by omega), m5, Prod.mk.injEq] at m5'
    obtain ⟨rfl, rfl⟩ := m5'
    rw [m6, m7, m8, m6', m7', m8']
    exact ⟨rfl, rfl, rfl⟩
  · push Not at hex
    obtain ⟨e1, e2, e3⟩ := h.empty hex
    obtain ⟨e1', e2', e3'⟩ := h'.empty fun i hi j hj q => by
      rw [x1] at hi
      rw [y1] at hj
      by_contra hc
      obtain ⟨q1, q2⟩ := (cell i hi j hj).1 ⟨q, hc⟩
      exact q2 (hex i hi j hj q1)
    rw [e1, e2, e3, e1', e2', e3']
    exact ⟨rfl, rfl, rfl⟩

section
variable {w w' : World K} {user user' p p' mc mc' inp inp' l r l' r' f f' : Fields} {out out' : List (Written K)} {H W : Nat}
  {dRow dCol dRow' dCol' : Disp} {sr sc sr' sc' : Nat} {invalid : F K} {n hw : Nat} {me : Measure} {ker : List (F K × F K) → F K}

theorem interpolated_stages (cfg : Interpolated w user p mc inp l r f H W dRow dCol sr sc invalid n hw me ker) (wf : user.wf) (hpan : PandoraContract w)
    (h : Main.main w user = (out, none)) : Nonempty (Stages w user p out) := by
  obtain ⟨pl, mc', disp, a1, a2, a3, a4, a5⟩ := cfg.asks.steps
  rw [cfg.pipeline, Option.some.injEq, J.obj.injEq] at a1
  subst a1
  have hd : "disparity" ∈ p.keys := (Fields.get_isSome p _).1 (by rw [a3]; rfl)
  exact main_stages w user p out wf hpan cfg.pipeline hd h

/-- The pixels of an execution with an interpolation on full images. -/
theorem Stages.interpolated (s : Stages w user p out) (cfg : Interpolated w user p mc inp l r f H W dRow dCol sr sc invalid n hw me ker) (wf : user.wf)
    (hdisk : DiskContract w H W) (hkeeps : PandoraKeeps w.pandora) (hb : BoundsContract w.run.interp) :
    0 < n ∧ ImagesRead w l r none s.left.img s.right.img ∧
      ((s.left.img.h = H ∧ s.left.img.w = W) ∧ s.right.img.h = H ∧ s.right.img.w = W) ∧
      (s.left.img.row0 = 0 ∧ s.left.img.col0 = 0) ∧
      (∀ f ∈ [s.files.row, s.files.col, s.files.score], (∀ i, i < f.h ↔ i * sr < H) ∧ ∀ j, j < f.w ↔ j * sc < W) ∧
      ∃ (ax ay : Arr1 K) (fr lr fc lc : Int) (gmin gmax : Arr2 Int),
      (Extent dRow s.left.img fr lr ∧ Extent dCol s.left.img fc lc) ∧
      (FullLattice ay (fr - 3) (lr + 3) n ∧ FullLattice ax (fc - 3) (lc + 3) n) ∧
      (∀ a < H, ∀ b < W, gmin.get a b = initAt dCol a b - dCol.range - 3 ∧ gmax.get a b = initAt dCol a b + dCol.range + 3) ∧
      ∀ i j a b : Nat, a = i * sr → b = j * sc → a < H → b < W →
        ∃ r0 c0 s0, BestPair me (AskedPair dRow dCol n a b)
          (fun x y => Pandora.windowCost hw ker s.left.img (slabImg w.run.zoom s.right.img n x) gmin gmax a b y) invalid r0 c0 s0 ∧
          InterpPixel w.run.interp me (fun x y => ReadDisp dRow fr lr a b x ∧ ReadDisp dCol fc lc a b y)
            (fun x y => Pandora.windowCost hw ker s.left.img (slabImg w.run.zoom s.right.img n x) gmin gmax a b y) ax ay r0 c0
            (s.files.row.values i j) (s.files.col.values i j) (s.files.score.values i j) := by
  obtain ⟨hn, dRow1, dCol1, ax, ay, fr, lr, fc, lc, gmin, gmax, -, i1, i2, i3, z, i4, i5, i6, i7, i8⟩ :=
    s.interpWinner hdisk hkeeps wf cfg.pipeline cfg.asks.zone (by omega) cfg.refinement cfg.method cfg.cost cfg.matcher hb
  obtain ⟨j1, j2⟩ := i1 cfg.noEstimation
  obtain ⟨⟨rfl, rfl⟩, ⟨rfl, rfl⟩, rfl⟩ := s.asked wf cfg.pipeline cfg.noEstimation cfg.asks j1 j2
  have him := s.images wf cfg.input cfg.left cfg.right
  have hroi : s.roi = none := by
    have r1 := s.roiFor
    cases hx : s.roi with
    | none => rfl
    | some R =>
      rw [hx] at r1
      obtain ⟨v, hv, -⟩ := r1
      rw [cfg.full] at hv; simp at hv
  rw [hroi] at him i2
  obtain ⟨f1, f2, f3, f4, -⟩ := i2
  have zz : ∀ f ∈ [s.files.row, s.files.col, s.files.score], (∀ i, i < f.h ↔ i * s.plan.cfg.stepRow < H) ∧ ∀ j, j < f.w ↔ j * s.plan.cfg.stepCol < W := by
    intro f hf
    have hz := z f hf
    refine ⟨fun i => ?_, fun j => ?_⟩
    · rw [hz.rows]
      have : (((i * s.plan.cfg.stepRow : Nat)) : Int) = (i : Int) * s.plan.cfg.stepRow := by push_cast; rfl
      omega
    · rw [hz.cols]
      have : (((j * s.plan.cfg.stepCol : Nat)) : Int) = (j : Int) * s.plan.cfg.stepCol := by push_cast; rfl
      omega
  refine ⟨hn, him, ⟨⟨f3, f4⟩, by omega, by omega⟩, ⟨f1, f2⟩, zz, ax, ay, fr, lr, fc, lc, gmin, gmax, i4, i5, fun a ha b hb => ⟨?_, ?_⟩,
    fun i j a b ea eb ha hb => ?_⟩
  · rw [i6 a (by omega) b (by omega), f1, f2, zero_add, zero_add]; omega
  · rw [i7 a (by omega) b (by omega), f1, f2, zero_add, zero_add]; omega
  · obtain ⟨z1, z2⟩ := zz _ List.mem_cons_self
    obtain ⟨r0, c0, s0, key, pix, -⟩ := i8 i ((z1 i).2 (by omega)) j ((z2 j).2 (by omega)) a b (by rw [ea]; push_cast; ring) (by rw [eb]; push_cast; ring)
    rw [f1, f2, sub_zero, sub_zero, Int.toNat_natCast, Int.toNat_natCast] at key pix
    exact ⟨r0, c0, s0, key, pix⟩

end

/-- C143: locality with an interpolation. Two successful executions on full images of the same size, without estimation, with the same subpixel factor,
window cost, invalid value, intervals and interpolation, whatever their steps. `fr` and `lr` are the smallest and the greatest row disparities asked
for all the pixels. At each pixel they share around which the images hold the same, in the left window and in the part of the right image covered by the
windows displaced by all the row disparities asked and by its own column disparities, widened by three, the three values are the same. -/
theorem C143_local_interpolation (w w' : World K) (user user' p p' mc mc' inp inp' l r l' r' f f' : Fields) (out out' : List (Written K)) (H W : Nat)
    (dRow dCol dRow' dCol' : Disp) (sr sc sr' sc' : Nat) (invalid : F K) (n hw : Nat) (me : Measure) (ker : List (F K × F K) → F K)
    (wf : user.wf) (wf' : user'.wf)
    (hdisk : DiskContract w H W) (hpan : PandoraContract w) (hkeeps : PandoraKeeps w.pandora) (hzoom : w.run.zoom = zoomLinear)
    (hdisk' : DiskContract w' H W) (hpan' : PandoraContract w') (hkeeps' : PandoraKeeps w'.pandora) (hzoom' : w'.run.zoom = zoomLinear)
    (hext : w'.run.interp = w.run.interp) (hb : BoundsContract w.run.interp) (he : ReadsInside w.run.interp)
    (cfg : Interpolated w user p mc inp l r f H W dRow dCol sr sc invalid n hw me ker)
    (cfg' : Interpolated w' user' p' mc' inp' l' r' f' H W dRow' dCol' sr' sc' invalid n hw me ker)
    (ir : ∀ x < H, ∀ y < W, SameIntervalMoved dRow dRow' x y x y) (ic : ∀ x < H, ∀ y < W, SameIntervalMoved dCol dCol' x y x y)
    (h : Main.main w user = (out, none)) (h' : Main.main w' user' = (out', none)) :
    ∃ files rest files' rest' left right left' right', ∃ fr lr : Int, out = .rasters files :: rest ∧ out' = .rasters files' :: rest' ∧
      ImagesRead w l r none left right ∧ ImagesRead w' l' r' none left' right' ∧ Extent dRow left fr lr ∧
      (∀ f ∈ [files.row, files.col, files.score], (∀ i, i < f.h ↔ i * sr < H) ∧ ∀ j, j < f.w ↔ j * sc < W) ∧
      (∀ f ∈ [files'.row, files'.col, files'.score], (∀ i, i < f.h ↔ i * sr' < H) ∧ ∀ j, j < f.w ↔ j * sc' < W) ∧
      ∀ i j i' j' a b : Nat, a = i * sr → a = i' * sr' → b = j * sc → b = j' * sc' → a < H → b < W →
        SameAround hw left right left' right' a b (fr - 3) (lr + 3) (initAt dCol a b - dCol.range - 3) (initAt dCol a b + dCol.range + 3) →
        files'.row.values i' j' = files.row.values i j ∧ files'.col.values i' j' = files.col.values i j ∧
          files'.score.values i' j' = files.score.values i j := by
  obtain ⟨s⟩ := interpolated_stages cfg wf hpan h
  obtain ⟨s'⟩ := interpolated_stages cfg' wf' hpan' h'
  obtain ⟨hn, im, ⟨sl, sr1⟩, o, z, ax, ay, fr, lr, fc, lc, gmin, gmax, ⟨x1, x2⟩, ⟨fy, fx⟩, hg, key⟩ := s.interpolated cfg wf hdisk hkeeps hb
  obtain ⟨-, im', ⟨sl', sr1'⟩, o', z', ax', ay', fr', lr', fc', lc', gmin', gmax', ⟨x1', x2'⟩, ⟨fy', fx'⟩, hg', key'⟩ :=
    s'.interpolated cfg' wf' hdisk' hkeeps' (by rw [hext]; exact hb)
  obtain ⟨rfl, rfl⟩ := extent_same sl sl' o o' ir x1 x1'
  obtain ⟨rfl, rfl⟩ := extent_same sl sl' o o' ic x2 x2'
  rw [hzoom] at key
  rw [hzoom', hext] at key'
  refine ⟨s.files, _, s'.files, _, s.left.img, s.right.img, s'.left.img, s'.right.img, fr', lr', s.outIs, s'.outIs, im, im', x1, z, z',
    fun i j i' j' a b ea ea' eb eb' ha hb near => ?_⟩
  obtain ⟨r0, c0, s0, b1, p1⟩ := key i j a b ea eb ha hb
  obtain ⟨r1, c1, s1, b2, p2⟩ := key' i' j' a b ea' eb' ha hb
  obtain ⟨g1, g2⟩ := hg a ha b hb
  obtain ⟨g1', g2'⟩ := hg' a ha b hb
  obtain ⟨u1, u2⟩ := ir a ha b hb
  obtain ⟨v1, v2⟩ := ic a ha b hb
  have costs : ∀ x y : K, (∃ k : Int, x * (n : K) = (k : K)) → ((fr' - 3 : Int) : K) ≤ x → x ≤ ((lr' + 3 : Int) : K) →
      Pandora.windowCost hw ker s'.left.img (slabImg zoomLinear s'.right.img n x) gmin' gmax' a b y =
      Pandora.windowCost hw ker s.left.img (slabImg zoomLinear s.right.img n x) gmin gmax a b y := by
    intro x y hkx q1 q2
    by_cases hy : (gmin.get a b : K) ≤ y ∧ y ≤ (gmax.get a b : K)
    · obtain ⟨q3, q4⟩ := id hy
      rw [g1] at q3
      rw [g2] at q4
      have D := slab_displaced s.right.img n hn x hkx
      have D' := slab_displaced s'.right.img n hn x hkx
      have values : ∀ x1 y1 : Nat, x1 < s.right.img.h → a ≤ x1 + hw → x1 ≤ a + hw → y1 < s.right.img.w → ⌊(b : K) + y⌋ ≤ (y1 : Int) + hw →
          (y1 : Int) ≤ ⌈(b : K) + y⌉ + hw →
          (slabImg zoomLinear s'.right.img n x).im x1 y1 = (slabImg zoomLinear s.right.img n x).im x1 y1 := by
        intro x1 y1 k0 k1 k2 k3 k4 k5
        refine displaced_local D D' ⟨by omega, by omega⟩ near.noData k0 k3 fun q hq u1 u2 => near.searched q y1 hq k3 ?_ ?_ ?_ ?_
        · have : (x1 : Int) + (fr' - 3) ≤ ⌊(x1 : K) + x⌋ := by
            rw [Int.le_floor]; push_cast; push_cast at q1; linarith
          omega
        · have : ⌈(x1 : K) + x⌉ ≤ (x1 : Int) + (lr' + 3) := by
            rw [Int.ceil_le, Int.cast_add, Int.cast_natCast]; linarith
          omega
        · have : (b : Int) + (initAt dCol a b - dCol.range - 3) ≤ ⌊(b : K) + y⌋ := by
            rw [Int.le_floor]; push_cast; push_cast at q3; linarith
          omega
        · have : ⌈(b : K) + y⌉ ≤ (b : Int) + (initAt dCol a b + dCol.range + 3) := by
            rw [Int.ceil_le, Int.cast_add, Int.cast_natCast]; linarith
          omega
      refine window_local ⟨⟨by omega, by omega⟩, by rw [D'.size.2, D.size.2]; omega⟩ hy ⟨?_, ?_⟩ near.window near.centre ?_ D.valid D'.valid
      · rw [g1', ← v1]; exact q3
      · rw [g2', ← v2]; exact q4
      · intro hin x1 y1 k1 k2 k3 k4 k5
        rw [D.size.2] at k3
        have v := values x1 y1 (by omega) k1 k2 k3 k4 k5
        exact ⟨v, by rw [D.flags, D'.flags, v, near.noData]⟩
    · have t : ¬ Pandora.windowOk hw s.left.img (slabImg zoomLinear s.right.img n x) gmin gmax a b y := fun q => hy q.2.2.1
      have t' : ¬ Pandora.windowOk hw s'.left.img (slabImg zoomLinear s'.right.img n x) gmin' gmax' a b y := fun q => hy (by
        have := q.2.2.1
        rw [g1', g2', ← v1, ← v2, ← g1, ← g2] at this
        exact this)
      unfold Pandora.windowCost
      rw [if_neg t, if_neg t']
  have hask : ∀ x y : K, AskedPair dRow' dCol' n a b x y ↔ AskedPair dRow dCol n a b x y := fun x y => by
    unfold AskedPair
    rw [← u1, ← u2, ← v1, ← v2]
  have ea := x1.inside a (by omega) b (by omega)
  rw [o.1, o.2, zero_add, zero_add] at ea
  have b2' : BestPair me (AskedPair dRow dCol n a b)
      (fun x y => Pandora.windowCost hw ker s.left.img (slabImg zoomLinear s.right.img n x) gmin gmax a b y) invalid r1 c1 s1 := by
    refine best_congr (fun x y q => costs x y ?_ ?_ ?_) (best_asked hask b2)
    · obtain ⟨⟨k, -, hk, -⟩, -⟩ := q
      exact ⟨k, hk⟩
    · exact le_trans (Int.cast_le.2 (by omega)) q.2.1.1
    · exact le_trans q.2.1.2 (Int.cast_le.2 (by omega))
  obtain ⟨rfl, rfl, -⟩ := BestPair.unique b1 b2'
  refine interp_same he (lattice_same hn fx fx') (lattice_same hn fy fy') ⟨fx.pos, fy.pos⟩ (fun i hi j hj => ⟨?_, ?_⟩) p1 p2
  · unfold ReadDisp
    rw [← u1, ← u2, ← v1, ← v2]
  · refine costs _ _ ?_ ?_ ?_
    · exact lattice_points hn fy hj
    · rw [← fy.first]
      by_cases h0 : j = 0
      · rw [h0]
      · exact (fy.increasing 0 j (by omega) hj).le
    · rw [← fy.last]
      by_cases h0 : j = ay.n - 1
      · rw [h0]
      · exact (fy.increasing j (ay.n - 1) (by omega) (by omega)).le

theorem whereIs_lt (a : Arr1 ℚ) (h : 0 < a.n) (x : ℚ) : whereIs a x < a.n := by
  unfold whereIs
  rcases hf : (List.range a.n).find? (fun k => decide (a.get k = x)) with _ | k
  · exact h
  · exact List.mem_range.1 (List.mem_of_find?_eq_some hf)

theorem whereIs_same {a a' : Arr1 ℚ} (h : SameAxis a a') (x : ℚ) : whereIs a' x = whereIs a x := by
  unfold whereIs
  rw [h.1]
  congr 1
  refine List.find?_congr fun i hi => ?_
  rw [h.2 i (List.mem_range.1 hi)]

theorem exI_reads : ReadsInside exI := by
  intro ax ay ax' ay' m m' hx hy x0 y0 _ _ h
  simp only [exI, Except.ok.injEq]
  funext u v
  rw [whereIs_same hx, whereIs_same hy]
  exact h _ (whereIs_lt ay y0 v) _ (whereIs_lt ax x0 u)

/-- An interpolation on full images of six rows and columns, with the only disparity zero. -/
def exUserSmooth : Fields := dict [("input", .obj (exInputBox 0 0)), ("pipeline", .obj (exPipeline none 1 1 (some exInterp)))]

theorem exUserSmooth_wf : exUserSmooth.wf := by
  simp [exUserSmooth, exInputBox, exL, exR, exPipeline, exInterp, dict, Fields.append, Fields.wf, J.wf, Fields.keys]

theorem exSmooth_cfg (l r : Img ℚ) :
    ∃ p mc inp f, Interpolated (exWorldImgs l r) exUserSmooth p mc inp exL exR f 6 6 ⟨.const 0, 0⟩ ⟨.const 0, 0⟩ 1 1 .nan 1 1 .min sad :=
  ⟨_, _, _, _, rfl, rfl, rfl, rfl, rfl, rfl, rfl, rfl, rfl,
    ⟨_, _, _, _, _, .int 1, rfl, rfl, rfl, .inl rfl, rfl, rfl⟩,
    ⟨⟨_, rfl, ⟨_, _, _, rfl, rfl, rfl, .inl rfl, .inl ⟨_, .inl rfl, rfl⟩⟩, ⟨_, _, _, rfl, rfl, rfl, .inl rfl, .inl ⟨_, .inl rfl, rfl⟩⟩⟩,
    .inr ⟨rfl, rfl, rfl, rfl, rfl⟩,
    ⟨_, _, _, rfl, rfl, rfl, .inl ⟨_, _, rfl, .inl rfl, .inl rfl⟩, .inl ⟨_, rfl, .inr (.inr (.inl ⟨rfl, rfl⟩))⟩⟩⟩⟩

theorem exSmooth_runs {l r : Img ℚ} (hl : exSized l) (hr : exSized r) :
    Main.main (exWorldImgs l r) exUserSmooth = ((Main.main (exWorldImgs l r) exUserSmooth).1, none) := by
  have : (Main.main (exWorldImgs l r) exUserSmooth).2 = none := by
    obtain ⟨m, cfg, h⟩ := accepted_ok (w := exWorldSixF) (user := exUserSmooth) (by decide +kernel)
    refine C81_accepted_runs_partial (exWorldImgs l r) _ _ _ cfg m 6 6 0 5 0 5 1 1 exUserSmooth_wf (exWorldImgs_contract hl hr) rfl
      (by simp [exPipeline, dict, Fields.append, Fields.keys])
      rfl (.inl ⟨_, _, rfl, .inl rfl, .inl rfl⟩) (.inr ⟨rfl, rfl, rfl, rfl, rfl⟩) (by omega) ?_ ?_ (.inl ⟨rfl, rfl⟩) h
    · intro he
      exact absurd rfl he
    · intro v hv
      have : v = exInterp := (Option.some.inj hv).symm
      subst this
      exact ⟨_, rfl, .inl rfl⟩
  exact Prod.ext rfl this

/-- Whatever the images: the pixel of row 1 and column 1 does not depend on the left image outside its window. -/
example (fl fl' fr : Img ℚ) (hl : exSized fl) (hl' : exSized fl') (hr : exSized fr) (hm : fl'.msk = fl.msk)
    (hv : fl'.validPixels = fl.validPixels ∧ fl'.noDataMask = fl.noDataMask)
    (h : ∀ x ≤ 2, ∀ y ≤ 2, fl'.im x y = fl.im x y) : ∃ files rest files' rest',
    Main.main (exWorldImgs fl fr) exUserSmooth = (.rasters files :: rest, none) ∧
    Main.main (exWorldImgs fl' fr) exUserSmooth = (.rasters files' :: rest', none) ∧
    files'.row.values 1 1 = files.row.values 1 1 ∧ files'.col.values 1 1 = files.col.values 1 1 ∧ files'.score.values 1 1 = files.score.values 1 1 := by
  obtain ⟨_, _, _, _, cfg⟩ := exSmooth_cfg fl fr
  obtain ⟨_, _, _, _, cfg'⟩ := exSmooth_cfg fl' fr
  have ct := exWorldImgs_contract hl hr
  have ct' := exWorldImgs_contract hl' hr
  have h1 := exSmooth_runs hl hr
  have h2 := exSmooth_runs hl' hr
  obtain ⟨files, rest, files', rest', left, right, left', right', f0, l0, o, o', i, i', -, -, -, key⟩ := C143_local_interpolation _ _ _ _ _ _ _ _ _ _
    _ _ _ _ _ _ _ _ 6 6 _ _ _ _ _ _ _ _ _ _ _ _ _ exUserSmooth_wf exUserSmooth_wf ct.disk ct.pandora ct.keeps rfl ct'.disk ct'.pandora ct'.keeps rfl
    rfl exI_bounds exI_reads cfg cfg' (fun _ _ _ _ => ⟨rfl, rfl⟩) (fun _ _ _ _ => ⟨rfl, rfl⟩) h1 h2
  obtain ⟨rfl, rfl⟩ := exWorldImgs_images i
  obtain ⟨rfl, rfl⟩ := exWorldImgs_images i'
  refine ⟨files, rest, files', rest', by rw [h1]; exact congrArg (·, none) o, by rw [h2]; exact congrArg (·, none) o',
    key 1 1 1 1 1 1 rfl rfl rfl rfl (by decide) (by decide) ⟨fun x y _ _ _ _ => ⟨h x (by omega) y (by omega), ?_⟩, ?_, rfl, fun _ _ _ _ _ _ _ _ => rfl⟩⟩
  · unfold Pandora.noDataAt
    simp [hm, hv]
  · unfold Pandora.invalidAt
    simp [hm, hv]

end Verif.Props
