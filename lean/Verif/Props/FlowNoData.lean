import Verif.Props.NoDataLess

/-!
# C152: more no-data with an optical flow
-/

namespace Verif.Props

open Verif Verif.Config Verif.Machine Verif.ImgTools Verif.MatchingCost Verif.Disparity Verif.Run Verif.Main Verif.Spec Verif.Save
  Verif.Statistics Verif.OpticalFlow

set_option linter.unusedSectionVars false

variable {K : Type} [Field K] [LinearOrder K] [IsStrictOrderedRing K] [FloorRing K]

/-- C152: more no-data with an optical flow. Two successful executions on full images, without estimation, with disparities of whole pixels, the same
steps, window cost, intervals, iterations and half window, at most the one of the cost, and NaN as the invalid value: the second has more pixels flagged as
no-data or invalid in its left image, and more no-data values in its right image. At each pixel, the second has neither score nor disparities, or both
have a score and the one of the first is at least as good; and when one pair only reaches the score in the first and can be compared in the second,
the three values are the same. Missing from the full claim: a pixel without refined disparity in the first may have one in the second when the pair it
starts from is lost, for which it is false (`C152_false`), disparities of fractions of pixels and other invalid values. -/
theorem C152_more_nodata_flow_partial (w w' : World K) (user user' p p' mc mc' inp inp' l r l' r' f f' : Fields) (out out' : List (Written K))
    (H W : Nat) (dRow dCol dRow' dCol' : Disp) (sr sc : Nat) (hw : Nat) (me : Measure) (ker : List (F K × F K) → F K) (it half : Nat)
    (wf : user.wf) (wf' : user'.wf)
    (hdisk : DiskContract w H W) (hpan : PandoraContract w) (hkeeps : PandoraKeeps w.pandora) (hoff : OffsetContract w)
    (hdisk' : DiskContract w' H W) (hpan' : PandoraContract w') (hkeeps' : PandoraKeeps w'.pandora) (hoff' : OffsetContract w')
    (cfg : Flowed w user p mc inp l r f H W dRow dCol sr sc .nan 1 hw me ker it half)
    (cfg' : Flowed w' user' p' mc' inp' l' r' f' H W dRow' dCol' sr sc .nan 1 hw me ker it half) (hhw : half ≤ hw)
    (hext : w'.run.flow = w.run.flow) (hsz : KeepsSize w.run.flow) (hres : ResamplesThrough w.run.flow id)
    (hnd : ∀ left right, ImagesRead w l r none left right → right.noData ≠ .nan)
    (hnd' : ∀ left right, ImagesRead w' l' r' none left right → right.noData ≠ .nan)
    (himg : ∀ left right left' right', ImagesRead w l r none left right → ImagesRead w' l' r' none left' right' →
      MoreFlags left left' ∧ MoreNoData right right')
    (ir : ∀ x < H, ∀ y < W, SameIntervalMoved dRow dRow' x y x y) (ic : ∀ x < H, ∀ y < W, SameIntervalMoved dCol dCol' x y x y)
    (h : Main.main w user = (out, none)) (h' : Main.main w' user' = (out', none)) :
    ∃ files rest files' rest' left right left' right', out = .rasters files :: rest ∧ out' = .rasters files' :: rest' ∧
      ImagesRead w l r none left right ∧ ImagesRead w' l' r' none left' right' ∧
      (∀ f ∈ [files.row, files.col, files.score], (∀ i, i < f.h ↔ i * sr < H) ∧ ∀ j, j < f.w ↔ j * sc < W) ∧
      (∀ f ∈ [files'.row, files'.col, files'.score], (∀ i, i < f.h ↔ i * sr < H) ∧ ∀ j, j < f.w ↔ j * sc < W) ∧
      ∀ i < files.row.h, ∀ j < files.row.w,
        ((files'.row.values i j = .nan ∧ files'.col.values i j = .nan ∧ files'.score.values i j = .nan) ∨
          files.score.values i j ≠ .nan ∧ files'.score.values i j ≠ .nan ∧
            AtLeastAsGood me (files.score.values i j) (files'.score.values i j)) ∧
        ∀ x y : Int, (∀ x' y', Reaches hw ker left right dRow dCol (i * sr) (j * sc) (files.score.values i j) x' y' ↔ x' = x ∧ y' = y) →
          Comparable hw left' right' (i * sr) (j * sc) x y →
          files'.row.values i j = files.row.values i j ∧ files'.col.values i j = files.col.values i j ∧
            files'.score.values i j = files.score.values i j := by
  obtain ⟨⟨hn, hh⟩, files, rest, left, right, o, im, ⟨⟨s1, s2⟩, s3, s4⟩, ⟨z1, z2⟩, z, key⟩ := flow_rasters cfg wf hdisk hpan hkeeps hoff h
  obtain ⟨-, files', rest', left', right', o', im', ⟨⟨s1', s2'⟩, s3', s4'⟩, ⟨z1', z2'⟩, z', key'⟩ :=
    flow_rasters cfg' wf' hdisk' hpan' hkeeps' hoff' h'
  obtain ⟨tl, tr⟩ := himg _ _ _ _ im im'
  have hnd1 := hnd _ _ im
  have hnd2 := hnd' _ _ im'
  refine ⟨files, rest, files', rest', left, right, left', right', o, o', im, im', z, z', fun i hi j hj => ?_⟩
  have bi : i * sr < H := ((z _ List.mem_cons_self).1 i).1 hi
  have bj : j * sc < W := ((z _ List.mem_cons_self).2 j).1 hj
  obtain ⟨gmin, gmax, g, r0, c0, b1, p1, q1⟩ := key i hi j hj
  obtain ⟨gmin', gmax', g', r1, c1, b2, p2, q2⟩ := key' i (((z' _ List.mem_cons_self).1 i).2 bi) j (((z' _ List.mem_cons_self).2 j).2 bj)
  rw [hext] at p2
  generalize i * sr = a at *
  generalize j * sc = b at *
  obtain ⟨e1, e2⟩ := ir _ bi _ bj
  obtain ⟨e3, e4⟩ := ic _ bi _ bj
  rw [← e3, ← e4] at g'
  rw [← e1, ← e2, ← e3, ← e4] at p2
  have hask : ∀ x y : K, AskedPair dRow' dCol' 1 a b x y ↔ AskedPair dRow dCol 1 a b x y := fun x y => by
    unfold AskedPair; rw [e1, e2, e3, e4]
  have whole : ∀ x y, AskedPair dRow dCol 1 a b x y → Pandora.windowCost hw ker left (slabImg w.run.zoom right 1 x) gmin gmax a b y =
      costAt hw ker left right a b x y := by
    rintro x y ⟨⟨kx, ky, hx, hy⟩, -, u3, u4⟩
    rw [Nat.cast_one, mul_one] at hx hy
    subst hx hy
    obtain ⟨v1, v2⟩ := g _ u3 u4
    rw [slab_int, costAt, Int.floor_intCast, Int.floor_intCast, window_whole hnd1 ⟨Int.cast_le.1 v1, Int.cast_le.1 v2⟩]
  have whole' : ∀ x y, AskedPair dRow dCol 1 a b x y → Pandora.windowCost hw ker left' (slabImg w'.run.zoom right' 1 x) gmin' gmax' a b y =
      costAt hw ker left' right' a b x y := by
    rintro x y ⟨⟨kx, ky, hx, hy⟩, -, u3, u4⟩
    rw [Nat.cast_one, mul_one] at hx hy
    subst hx hy
    obtain ⟨v1, v2⟩ := g' _ u3 u4
    rw [slab_int, costAt, Int.floor_intCast, Int.floor_intCast, window_whole hnd2 ⟨Int.cast_le.1 v1, Int.cast_le.1 v2⟩]
  have b1 := best_congr whole b1
  have b2 := best_congr whole' (best_asked hask b2)
  have sizes : (left'.h = left.h ∧ left'.w = left.w) ∧ right'.h = right.h ∧ right'.w = right.w := by omega
  have keep : ∀ x y : K, costAt hw ker left' right' a b x y ≠ .nan → costAt hw ker left right a b x y = costAt hw ker left' right' a b x y := by
    intro x y q
    unfold costAt at q ⊢
    refine (wholeCost_still tl tr sizes.1 sizes.2 fun _ => ?_).symm
    by_contra hc
    exact q (by unfold wholeCost; rw [if_neg hc])
  have gone : (∀ x y, AskedPair dRow dCol 1 a b x y → costAt hw ker left' right' a b x y = .nan) →
      files'.row.values i j = .nan ∧ files'.col.values i j = .nan ∧ files'.score.values i j = .nan := by
    intro hno
    obtain ⟨rfl, rfl, e⟩ := b2.invalid hno
    by_cases inn : InnerPoint 0 H sr half (a : Int) ∧ InnerPoint 0 W sc half (b : Int)
    · obtain ⟨v1, v2⟩ := flowPixel_nan (p2 inn)
      exact ⟨v1, v2, e⟩
    · obtain ⟨v1, v2⟩ := q2 inn
      exact ⟨v1, v2, e⟩
  have better : (∃ x y, AskedPair dRow dCol 1 a b x y ∧ costAt hw ker left' right' a b x y ≠ .nan) →
      files.score.values i j ≠ .nan ∧ files'.score.values i j ≠ .nan ∧ AtLeastAsGood me (files.score.values i j) (files'.score.values i j) := by
    intro he
    obtain ⟨⟨v1, x, y, v2, v3⟩, -⟩ := b2.best he
    have k := keep x y (by rw [v3]; exact v1)
    obtain ⟨⟨t1, -⟩, t2⟩ := b1.best ⟨x, y, v2, by rw [k, v3]; exact v1⟩
    exact ⟨t1, v1, t2 _ ⟨v1, x, y, v2, by rw [k, v3]⟩⟩
  constructor
  · by_cases he : ∃ x y, AskedPair dRow dCol 1 a b x y ∧ costAt hw ker left' right' a b x y ≠ .nan
    · exact .inr (better he)
    · push Not at he
      exact .inl (gone he)
  · intro x y only hcomp
    have hr := (only x y).2 ⟨rfl, rfl⟩
    obtain ⟨⟨⟨a1, a2⟩, a3, a4⟩, -, hker⟩ := hr
    have ask : AskedPair dRow dCol 1 a b ((x : Int) : K) ((y : Int) : K) :=
      ⟨⟨x, y, by simp, by simp⟩, ⟨Int.cast_le.2 a1, Int.cast_le.2 a2⟩, Int.cast_le.2 a3, Int.cast_le.2 a4⟩
    obtain ⟨comp1, pairs⟩ := comparable_less tl tr sizes.1 sizes.2 hcomp
    have c2 : costAt hw ker left' right' a b ((x : Int) : K) ((y : Int) : K) = files.score.values i j := by
      rw [costAt, Int.floor_intCast, Int.floor_intCast, wholeCost, if_pos hcomp, pairs, hker]
    by_cases hs : files.score.values i j = .nan
    · -- no pair has a cost
      have hno : ∀ x y, AskedPair dRow dCol 1 a b x y → costAt hw ker left right a b x y = .nan := by
        intro x y q
        by_contra hne
        exact (b1.best ⟨x, y, q, hne⟩).1.1 hs
      obtain ⟨rfl, rfl, -⟩ := b1.invalid hno
      have hno' : ∀ x y, AskedPair dRow dCol 1 a b x y → costAt hw ker left' right' a b x y = .nan := by
        intro x y q
        by_contra hne
        exact hne (by rw [← keep x y hne]; exact hno x y q)
      obtain ⟨w1, w2, w3⟩ := gone hno'
      have : files.row.values i j = .nan ∧ files.col.values i j = .nan := by
        by_cases inn : InnerPoint 0 H sr half (a : Int) ∧ InnerPoint 0 W sc half (b : Int)
        · exact flowPixel_nan (p1 inn)
        · exact q1 inn
      rw [w1, w2, w3, this.1, this.2, hs]
      exact ⟨rfl, rfl, rfl⟩
    have he' : ∃ x y, AskedPair dRow dCol 1 a b x y ∧ costAt hw ker left' right' a b x y ≠ .nan := ⟨_, _, ask, by rw [c2]; exact hs⟩
    have he : ∃ x y, AskedPair dRow dCol 1 a b x y ∧ costAt hw ker left right a b x y ≠ .nan := by
      obtain ⟨x, y, v1, v2⟩ := he'
      exact ⟨x, y, v1, by rw [keep x y v2]; exact v2⟩
    -- the same score
    have score : files'.score.values i j = files.score.values i j := by
      obtain ⟨-, -, g1⟩ := better he'
      have g2 := (b2.best he').2 _ ⟨hs, _, _, ask, c2⟩
      exact good_antisymm g2 g1
    -- the same start
    have same : r1 = r0 ∧ c1 = c0 ∧ r0 = .fin ((x : Int) : K) ∧ c0 = .fin ((y : Int) : K) := by
      obtain ⟨dr, dc, rfl, rfl, ⟨dc', v1, v2⟩, ⟨dr', v3, v4⟩, -⟩ := b1.smallest he
      obtain ⟨rfl, -⟩ := costAt_reached only hs v1 v2
      obtain ⟨-, rfl⟩ := costAt_reached only hs v3 v4
      obtain ⟨dr, dc, rfl, rfl, ⟨dc', v1, v2⟩, ⟨dr', v3, v4⟩, -⟩ := b2.smallest he'
      rw [score] at v2 v4
      obtain ⟨rfl, -⟩ := costAt_reached only hs v1 ((keep _ _ (by rw [v2]; exact hs)).trans v2)
      obtain ⟨-, rfl⟩ := costAt_reached only hs v3 ((keep _ _ (by rw [v4]; exact hs)).trans v4)
      exact ⟨rfl, rfl, rfl, rfl⟩
    obtain ⟨rfl, rfl, rfl, rfl⟩ := same
    refine (and_assoc.1 ⟨?_, score⟩)
    by_cases inn : InnerPoint 0 H sr half (a : Int) ∧ InnerPoint 0 W sc half (b : Int)
    · have f1 := innerPoint_fits inn.1
      have f2 := innerPoint_fits inn.2
      obtain ⟨⟨⟨k1, k2, k3, k4⟩, k5, k6, k7, k8⟩, m1, m2, m3⟩ := hcomp
      refine flowPixel_seen hh hsz hres (fun a b a' b' v1 v2 v3 v4 => lucasKanade_local v1 v2 v3 v4)
        (left_seen ⟨z1, z1'⟩ (by omega) (by omega) fun x y hx hy u1 u2 u3 u4 =>
          (tl.values x hx y hy (m1 x y (by omega) (by omega) (by omega) (by omega))).2)
        (fun s t h1 h2 => right_seen rfl ⟨by omega, by omega⟩ ⟨z2, z2'⟩ fun x' y' hx hy u1 u2 u3 u4 => ?_) (p1 inn) (p2 inn)
      obtain rfl := startShift_whole h1
      obtain rfl := startShift_whole h2
      rcases tr.2 x' hx y' hy with e | e
      · exact e
      · exact absurd (by rw [e, tr.1]) (m3 x' y' (by omega) (by omega) (by omega) (by omega))
    · obtain ⟨y1, y2⟩ := q1 inn
      obtain ⟨y3, y4⟩ := q2 inn
      exact ⟨y3.trans y1.symm, y4.trans y2.symm⟩

/-! ## Example -/

/-- Whatever the images and their no-data, with more of it in the right image and a flag in the left one. -/
example (nd : ℚ) (hole hole' : Nat → Nat → Bool) (fl fr : Nat → Nat → F ℚ) (hh : ∀ x y, hole x y = true → hole' x y = true) :
    ∃ files rest files' rest',
    Main.main (exWorldImgs (exImgSix fl) (exHoled (.fin nd) hole fr)) (exUserFlowFull 0 1) = (.rasters files :: rest, none) ∧
    Main.main (exWorldImgs (exFlagged (.fin 0) fl) (exHoled (.fin nd) hole' fr)) (exUserFlowFull 0 1) = (.rasters files' :: rest', none) ∧
    ∀ a < 6, ∀ b < 6, files'.row.values a b = .nan ∧ files'.col.values a b = .nan ∧ files'.score.values a b = .nan ∨
      F.le (files.score.values a b) (files'.score.values a b) = true := by
  have sl : exSized (exImgSix fl) := ⟨⟨rfl, rfl⟩, rfl, rfl⟩
  have sl' : exSized (exFlagged (.fin 0) fl) := ⟨⟨rfl, rfl⟩, rfl, rfl⟩
  have sr : ∀ hole, exSized (exHoled (.fin nd) hole fr) := fun _ => ⟨⟨rfl, rfl⟩, rfl, rfl⟩
  obtain ⟨_, _, _, _, cfg⟩ := exImgs_flowed (exImgSix fl) (exHoled (.fin nd) hole fr) 1
  obtain ⟨_, _, _, _, cfg'⟩ := exImgs_flowed (exFlagged (.fin 0) fl) (exHoled (.fin nd) hole' fr) 1
  have ct := exWorldImgs_contract sl (sr hole)
  have ct' := exWorldImgs_contract sl' (sr hole')
  have h1 := exImgs_runsFlow sl (sr hole) 1 (by decide +kernel)
  have h2 := exImgs_runsFlow sl' (sr hole') 1 (by decide +kernel)
  obtain ⟨files, rest, files', rest', left, right, left', right', o, o', -, -, z, -, key⟩ :=
    C152_more_nodata_flow_partial _ _ _ _ _ _ _ _ _ _ _ _ _ _ _ _ _ _ 6 6 _ _ _ _ _ _ _ _ _ _ _
    (exUserFlowFull_wf 0 1) (exUserFlowFull_wf 0 1) ct.disk ct.pandora ct.keeps ct.offset ct'.disk ct'.pandora ct'.keeps ct'.offset cfg cfg'
    (by decide) rfl (fun _ _ _ => ⟨rfl, rfl⟩) (fun _ _ _ _ h => h)
    (fun left right i => by obtain ⟨rfl, rfl⟩ := exWorldImgs_images i; simp [exHoled])
    (fun left right i => by obtain ⟨rfl, rfl⟩ := exWorldImgs_images i; simp [exHoled])
    (fun left right left' right' i i' => by
      obtain ⟨rfl, rfl⟩ := exWorldImgs_images i
      obtain ⟨rfl, rfl⟩ := exWorldImgs_images i'
      exact exMore _ _ _ _ _ hh) (fun _ _ _ _ => ⟨rfl, rfl⟩) (fun _ _ _ _ => ⟨rfl, rfl⟩) h1 h2
  obtain ⟨y1, y2⟩ := z _ List.mem_cons_self
  refine ⟨files, rest, files', rest', by rw [h1]; exact congrArg (·, none) o, by rw [h2]; exact congrArg (·, none) o', fun a ha b hb => ?_⟩
  rcases (key a ((y1 a).2 (by omega)) b ((y2 b).2 (by omega))).1 with q | ⟨-, -, q⟩
  · exact .inl q
  · exact .inr q

/-! ### Counterexample -/

/-- The full statement of C152: a pixel without refined disparities in the first has none in the second. -/
def C152Statement : Prop :=
  ∀ (w w' : World ℚ) (user user' p p' mc mc' inp inp' l r l' r' f f' : Fields) (out out' : List (Written ℚ))
    (H W : Nat) (dRow dCol dRow' dCol' : Disp) (sr sc : Nat) (hw : Nat) (me : Measure) (ker : List (F ℚ × F ℚ) → F ℚ) (it half : Nat),
    user.wf → user'.wf → DiskContract w H W → PandoraContract w → PandoraKeeps w.pandora → OffsetContract w →
    DiskContract w' H W → PandoraContract w' → PandoraKeeps w'.pandora → OffsetContract w' →
    Flowed w user p mc inp l r f H W dRow dCol sr sc .nan 1 hw me ker it half →
    Flowed w' user' p' mc' inp' l' r' f' H W dRow' dCol' sr sc .nan 1 hw me ker it half → half ≤ hw →
    w'.run.flow = w.run.flow → KeepsSize w.run.flow → ResamplesThrough w.run.flow id →
    (∀ left right, ImagesRead w l r none left right → right.noData ≠ .nan) →
    (∀ left right, ImagesRead w' l' r' none left right → right.noData ≠ .nan) →
    (∀ left right left' right', ImagesRead w l r none left right → ImagesRead w' l' r' none left' right' →
      MoreFlags left left' ∧ MoreNoData right right') →
    (∀ x < H, ∀ y < W, SameIntervalMoved dRow dRow' x y x y) → (∀ x < H, ∀ y < W, SameIntervalMoved dCol dCol' x y x y) →
    Main.main w user = (out, none) → Main.main w' user' = (out', none) →
    ∃ (files : Files ℚ (F ℚ)) (rest : List (Written ℚ)) (files' : Files ℚ (F ℚ)) (rest' : List (Written ℚ)),
      out = .rasters files :: rest ∧ out' = .rasters files' :: rest' ∧
      ∀ i < files.row.h, ∀ j < files.row.w, files.row.values i j = .nan → files'.row.values i j = .nan

/-- The columns 1 to 3 of the rows 1 to `m` of the right image hold data. -/
def exTall (m x y : Nat) : Bool := !(decide (1 ≤ x ∧ x ≤ m) && decide (1 ≤ y ∧ y ≤ 3))

/-- The left image `exHill`, one row down, after a row of zeros. -/
def exHillDown (x y : Nat) : F ℚ := if x = 1 then .fin 0 else exHill (x - 1) y

theorem exHillDown_data (x y : Nat) : exHillDown x y ≠ .fin (-9) := by
  unfold exHillDown
  split_ifs
  · simp
  · have : (0 : ℚ) ≤ ((x - 1 : Nat) : ℚ) * (y : ℚ) := by positivity
    simp only [exHill, ne_eq, F.fin.injEq]
    intro e
    linarith

/-- The row disparity of the pixel of row 2 and column 2: the best pair is `(1, 0)` when its window holds data, at the end of the interval, otherwise the only
pair is `(0, 0)`. -/
theorem exTall_pixel (m : Nat) (d : F ℚ) (hm : m = 4 ∧ d = .nan ∨ m = 3 ∧ d = .fin (-3 / 13)) {p mc inp f : Fields} {out : List (Written ℚ)}
    (cfg : Flowed (exWorldImgs (exImgSix exHill) (exHoled (.fin (-9)) (exTall m) exHillDown)) (exUserFlowFull 0 1) p mc inp exL exR f 6 6 ⟨.const 0, 1⟩
      ⟨.const 0, 1⟩ 1 1 .nan 1 1 .min sad 1 1)
    (h : Main.main (exWorldImgs (exImgSix exHill) (exHoled (.fin (-9)) (exTall m) exHillDown)) (exUserFlowFull 0 1) = (out, none)) :
    ∃ files rest, out = .rasters files :: rest ∧ (2 < files.row.h ∧ 2 < files.row.w) ∧ files.row.values 2 2 = d := by
  have sz : exSized (exHoled (.fin (-9)) (exTall m) exHillDown) := ⟨⟨rfl, rfl⟩, rfl, rfl⟩
  have ct := exWorldImgs_contract (l := exImgSix exHill) ⟨⟨rfl, rfl⟩, rfl, rfl⟩ sz
  obtain ⟨-, files, rest, left, right, o, im, -, -, z, key⟩ := flow_rasters cfg (exUserFlowFull_wf 0 1) ct.disk ct.pandora ct.keeps ct.offset h
  obtain ⟨rfl, rfl⟩ := exWorldImgs_images im
  obtain ⟨y1, y2⟩ := z _ List.mem_cons_self
  have z1 := (y1 2).2 (by decide)
  have z2 := (y2 2).2 (by decide)
  refine ⟨files, rest, o, ⟨z1, z2⟩, ?_⟩
  obtain ⟨gmin, gmax, g, r0, c0, b1, p1, -⟩ := key 2 z1 2 z2
  have whole : ∀ x y, AskedPair ⟨.const 0, 1⟩ ⟨.const 0, 1⟩ 1 ((2 * 1 : Nat) : Int) ((2 * 1 : Nat) : Int) x y →
      Pandora.windowCost 1 sad (exImgSix exHill)
        (slabImg (exWorldImgs (exImgSix exHill) (exHoled (.fin (-9)) (exTall m) exHillDown)).run.zoom (exHoled (.fin (-9)) (exTall m) exHillDown) 1 x)
        gmin gmax (2 * 1) (2 * 1) y =
      costAt 1 sad (exImgSix exHill) (exHoled (.fin (-9)) (exTall m) exHillDown) 2 2 x y := by
    rintro x y ⟨⟨kx, ky, hx, hy⟩, -, u3, u4⟩
    rw [Nat.cast_one, mul_one] at hx hy
    subst hx hy
    obtain ⟨v1, v2⟩ := g _ u3 u4
    rw [slab_int, costAt, Int.floor_intCast, Int.floor_intCast, window_whole (by simp [exHoled]) ⟨Int.cast_le.1 v1, Int.cast_le.1 v2⟩]
  have b1 := best_congr whole b1
  -- the pairs which can be compared
  have comp : ∀ u v : Int, Comparable 1 (exImgSix exHill) (exHoled (.fin (-9)) (exTall m) exHillDown) 2 2 u v → 0 ≤ u ∧ u + 3 ≤ m ∧ v = 0 := by
    rintro u v ⟨hin, -, -, hv⟩
    have hin := hin.2
    have at' : ∀ a b : Nat, (2 : Int) + u ≤ a + 1 → (a : Int) ≤ 2 + u + 1 → (2 : Int) + v ≤ b + 1 → (b : Int) ≤ 2 + v + 1 →
        (1 ≤ a ∧ a ≤ m) ∧ 1 ≤ b ∧ b ≤ 3 := by
      intro a b u1 u2 u3 u4
      have := hv a b (by push_cast; omega) (by push_cast; omega) (by push_cast; omega) (by push_cast; omega)
      by_contra hc
      refine this ?_
      have : exTall m a b = true := by
        simp only [exTall, Bool.not_eq_true', Bool.and_eq_false_iff, decide_eq_false_iff_not]
        tauto
      simp [exHoled, exImgSix, this]
    push_cast at hin
    have c1 := at' (2 + u - 1).toNat (2 + v - 1).toNat (by omega) (by omega) (by omega) (by omega)
    have c2 := at' (2 + u + 1).toNat (2 + v + 1).toNat (by omega) (by omega) (by omega) (by omega)
    omega
  have hcost : ∀ u : Int, 0 ≤ u → u + 3 ≤ m →
      costAt 1 sad (exImgSix exHill) (exHoled (.fin (-9)) (exTall m) exHillDown) 2 2 (u : ℚ) ((0 : Int) : ℚ) =
        sad (wholePairs 1 (exImgSix exHill) (exHoled (.fin (-9)) (exTall m) exHillDown) 2 2 u 0) := by
    intro u h0 h1
    unfold costAt wholeCost
    rw [Int.floor_intCast, Int.floor_intCast, if_pos]
    have hm' : m ≤ 4 := by omega
    refine ⟨?_, fun _ _ _ _ _ _ => rfl, rfl, fun x y q1 q2 q3 q4 => ?_⟩
    · simp only [BothInside, exImgSix, exHoled]
      omega
    · have : exTall m x y = false := by
        simp only [exTall, Bool.not_eq_false', Bool.and_eq_true, decide_eq_true_eq]
        push_cast at q1 q2 q3 q4
        omega
      simp only [exHoled, exImgSix, this, Bool.false_eq_true, if_false, ne_eq]
      exact exHillDown_data x y
  have ask : ∀ u : Int, 0 ≤ u → u ≤ 1 →
      AskedPair ⟨.const 0, 1⟩ ⟨.const 0, 1⟩ 1 ((2 * 1 : Nat) : Int) ((2 * 1 : Nat) : Int) (u : ℚ) ((0 : Int) : ℚ) := by
    intro u h0 h1
    refine ⟨⟨u, 0, by simp, by simp⟩, ?_⟩
    simp only [initAt, Int.cast_le]
    omega
  -- the best one
  have ub : (0 : Int) ≤ (m : Int) - 3 ∧ (m : Int) - 3 ≤ 1 := by omega
  have best : ∃ t : F ℚ, t ≠ .nan ∧ sad (wholePairs 1 (exImgSix exHill) (exHoled (.fin (-9)) (exTall m) exHillDown) 2 2 ((m : Int) - 3) 0) = t ∧
      ∀ u : Int, 0 ≤ u → u + 3 ≤ m → F.le (sad (wholePairs 1 (exImgSix exHill) (exHoled (.fin (-9)) (exTall m) exHillDown) 2 2 u 0)) t = true → u = (m : Int) - 3 := by
    rcases hm with ⟨rfl, -⟩ | ⟨rfl, -⟩
    · refine ⟨.fin 0, by simp, by decide +kernel, fun u h0 h1 hle => ?_⟩
      have : u = 0 ∨ u = 1 := by omega
      rcases this with rfl | rfl
      · exfalso
        revert hle
        decide +kernel
      · rfl
    · refine ⟨sad (wholePairs 1 (exImgSix exHill) (exHoled (.fin (-9)) (exTall 3) exHillDown) 2 2 0 0), by decide +kernel, rfl, fun u h0 h1 _ => ?_⟩
      omega
  obtain ⟨t, ht, hbest, honly⟩ := best
  have he : ∃ x y, AskedPair ⟨.const 0, 1⟩ ⟨.const 0, 1⟩ 1 ((2 * 1 : Nat) : Int) ((2 * 1 : Nat) : Int) x y ∧
      costAt 1 sad (exImgSix exHill) (exHoled (.fin (-9)) (exTall m) exHillDown) 2 2 x y ≠ .nan :=
    ⟨_, _, ask ((m : Int) - 3) ub.1 ub.2, by rw [hcost _ ub.1 (by omega), hbest]; exact ht⟩
  obtain ⟨⟨hs, -⟩, lowest⟩ := b1.best he
  have hle : F.le (files.score.values 2 2) t = true :=
    lowest t ⟨ht, _, _, ask ((m : Int) - 3) ub.1 ub.2, (hcost _ ub.1 (by omega)).trans hbest⟩
  have only : ∀ x y : ℚ, AskedPair ⟨.const 0, 1⟩ ⟨.const 0, 1⟩ 1 ((2 * 1 : Nat) : Int) ((2 * 1 : Nat) : Int) x y →
      costAt 1 sad (exImgSix exHill) (exHoled (.fin (-9)) (exTall m) exHillDown) 2 2 x y = files.score.values 2 2 →
      x = (((m : Int) - 3 : Int) : ℚ) ∧ y = 0 := by
    intro x y q e
    obtain ⟨u, v, rfl, rfl, -, hc, hv⟩ := costAt_reaches (by exact hs) q e
    obtain ⟨h0, h1, rfl⟩ := comp u v hc
    rw [← hv] at hle
    rw [honly u h0 h1 hle]
    simp
  obtain ⟨dr, dc, rfl, rfl, ⟨dc', w1, w2⟩, ⟨dr', w3, w4⟩, -⟩ := b1.smallest he
  obtain ⟨rfl, -⟩ := only _ _ w1 w2
  obtain ⟨-, rfl⟩ := only _ _ w3 w4
  obtain ⟨sr, sc, s1, s2, t, rfl, e, -⟩ := p1 ⟨⟨⟨1, by decide, by decide⟩, 1, by decide, by decide⟩, ⟨1, by decide, by decide⟩, 1, by decide, by decide⟩
  obtain rfl := startShift_whole (K := ℚ) s1
  obtain rfl : sc = 0 := startShift_whole (K := ℚ) (d := 0) (by simpa using s2)
  rw [e]
  have hflow : (exWorldImgs (exImgSix exHill) (exHoled (.fin (-9)) (exTall m) exHillDown)).run.flow = exExt := rfl
  rw [hflow]
  rcases hm with ⟨rfl, rfl⟩ | ⟨rfl, rfl⟩ <;> decide +kernel

/-- The full statement is false: when the best pair is at the end of an interval the refined disparity is lost; with no-data values in its window the
pixel starts from another pair, and gets a refined disparity. -/
theorem C152_false : ¬ C152Statement := by
  intro hst
  have sl : exSized (exImgSix exHill) := ⟨⟨rfl, rfl⟩, rfl, rfl⟩
  have sr : ∀ m, exSized (exHoled (.fin (-9)) (exTall m) exHillDown) := fun _ => ⟨⟨rfl, rfl⟩, rfl, rfl⟩
  obtain ⟨_, _, _, _, cfg⟩ := exImgs_flowed (exImgSix exHill) (exHoled (.fin (-9)) (exTall 4) exHillDown) 1
  obtain ⟨_, _, _, _, cfg'⟩ := exImgs_flowed (exImgSix exHill) (exHoled (.fin (-9)) (exTall 3) exHillDown) 1
  have ct := exWorldImgs_contract sl (sr 4)
  have ct' := exWorldImgs_contract sl (sr 3)
  have h1 := exImgs_runsFlow sl (sr 4) 1 (by decide +kernel)
  have h2 := exImgs_runsFlow sl (sr 3) 1 (by decide +kernel)
  obtain ⟨files, rest, files', rest', o, o', key⟩ := hst _ _ _ _ _ _ _ _ _ _ _ _ _ _ _ _ _ _ 6 6
    _ _ _ _ _ _ _ _ _ _ _
    (exUserFlowFull_wf 0 1) (exUserFlowFull_wf 0 1) ct.disk ct.pandora ct.keeps ct.offset ct'.disk ct'.pandora ct'.keeps ct'.offset cfg cfg'
    (by decide) rfl (fun _ _ _ => ⟨rfl, rfl⟩) (fun _ _ _ _ h => h)
    (fun left right i => by obtain ⟨rfl, rfl⟩ := exWorldImgs_images i; simp [exHoled])
    (fun left right i => by obtain ⟨rfl, rfl⟩ := exWorldImgs_images i; simp [exHoled])
    (fun left right left' right' i i' => by
      obtain ⟨rfl, rfl⟩ := exWorldImgs_images i
      obtain ⟨rfl, rfl⟩ := exWorldImgs_images i'
      refine ⟨⟨fun _ _ _ _ _ => ⟨rfl, rfl⟩, fun _ _ _ _ _ => rfl⟩, (exMore _ _ _ (fun _ _ => .nan) _ fun x y q => ?_).2⟩
      simp only [exTall, Bool.not_eq_true', Bool.and_eq_false_iff, decide_eq_false_iff_not] at q ⊢
      omega)
    (fun _ _ _ _ => ⟨rfl, rfl⟩) (fun _ _ _ _ => ⟨rfl, rfl⟩) h1 h2
  obtain ⟨fs, _, w1, ⟨w2, w3⟩, w4⟩ := exTall_pixel 4 .nan (.inl ⟨rfl, rfl⟩) cfg h1
  obtain ⟨fs', _, w1', -, w4'⟩ := exTall_pixel 3 (.fin (-3 / 13)) (.inr ⟨rfl, rfl⟩) cfg' h2
  have e1 := o.symm.trans w1
  have e2 := o'.symm.trans w1'
  simp only [List.cons.injEq, Written.rasters.injEq] at e1 e2
  obtain ⟨rfl, -⟩ := e1
  obtain ⟨rfl, -⟩ := e2
  have v := key 2 w2 2 w3 w4
  rw [w4'] at v
  simp at v

end Verif.Props
