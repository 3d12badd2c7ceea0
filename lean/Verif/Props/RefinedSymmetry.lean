import Verif.Spec.RefinedSymmetry
import Verif.Props.RefinedTiles
import Verif.Props.Whole

/-!
# C134: exchanged axes with a dichotomy
-/

namespace Verif.Props

open Verif Verif.Config Verif.Machine Verif.ImgTools Verif.MatchingCost Verif.Disparity Verif.Run Verif.Main Verif.Spec Verif.Save
  Verif.Statistics

set_option linter.unusedSectionVars false

variable {K : Type} [Field K] [LinearOrder K] [IsStrictOrderedRing K] [FloorRing K]

/-- The interpolation does not distinguish the axes. -/
theorem filtered_exchanged (g : Kernel K) (n : Nat) (cost : K → K → F K) (x y : K) :
    filtered g n (fun a b => cost b a) x y = filtered g n cost y x := by
  unfold filtered
  have e : (∃ a < g.size, ∃ b < g.size, cost (node g n y b) (node g n x a) = .nan) ↔
      ∃ a < g.size, ∃ b < g.size, cost (node g n y a) (node g n x b) = .nan :=
    ⟨fun ⟨a, ha, b, hb, h⟩ => ⟨b, hb, a, ha, h⟩, fun ⟨a, ha, b, hb, h⟩ => ⟨b, hb, a, ha, h⟩⟩
  by_cases h : ∃ a < g.size, ∃ b < g.size, cost (node g n y a) (node g n x b) = .nan
  · rw [if_pos h, if_pos (e.2 h)]
  · rw [if_neg h, if_neg fun q => h (e.1 q), Finset.sum_comm]
    congr 1
    refine Finset.sum_congr rfl fun a _ => Finset.sum_congr rfl fun b _ => ?_
    ring

theorem seen_exchanged (dRow dCol : Disp) (fr lr fc lc r c : Int) (cost : K → K → F K) (x y : K) :
    seen dCol dRow fc lc fr lr r c (fun a b => cost b a) x y = seen dRow dCol fr lr fc lc r c cost y x := by
  unfold seen
  by_cases h : ReadDisp dCol fc lc r c x ∧ ReadDisp dRow fr lr r c y
  · rw [if_pos h, if_pos h.symm]
  · rw [if_neg h, if_neg fun q => h q.symm]

theorem tried_exchanged (val : K → K → F K) (h x y : K) (v : F K) (s : Int × Int) :
    tried (fun a b => val b a) h y x v s.swap = tried val h x y v s := by
  unfold tried
  have : s.swap = (0, 0) ↔ s = (0, 0) := by
    rw [Prod.ext_iff, Prod.ext_iff]
    exact and_comm
  simp only [this, Prod.fst_swap, Prod.snd_swap]

/-- A search which never has to choose, with the axes exchanged. -/
theorem path_exchanged {me : Measure} {val : K → K → F K} {it k : Nat} {x y x1 y1 : K} {v v1 : F K} (p : Path me val it k x y v x1 y1 v1)
    (hn : NoTies me val it k x y v) : Path me (fun a b => val b a) it k y x v y1 x1 v1 := by
  induction p with
  | stop h => exact .stop h
  | @move k x y v s x' y' v' h hs hp ih =>
    have ar : ∀ t : Int × Int, Around t → Around t.swap := fun t ht => ⟨ht.2, ht.1⟩
    have tr : ∀ t : Int × Int, tried (fun a b => val b a) (1 / 2 ^ (k + 1)) y x v t = tried val (1 / 2 ^ (k + 1)) x y v t.swap := fun t =>
      tried_exchanged val (1 / 2 ^ (k + 1)) x y v t.swap
    refine .move h (s := s.swap) ⟨ar _ hs.around, ?_, fun t ht q => ?_, fun hf => ?_, fun hf t ht e => ?_⟩ ?_
    · rw [tr, Prod.swap_swap]
      exact hs.number
    · rw [tr] at q
      rw [tr, tr, Prod.swap_swap]
      exact hs.best _ (ar _ ht) q
    · rw [hs.flat fun t ht => by have := hf t.swap (ar _ ht); rwa [tr, Prod.swap_swap] at this]
      rfl
    · rw [tr, tr, Prod.swap_swap] at e
      obtain ⟨u, hu, q⟩ := hf
      rw [tr] at q
      have := hn k x y v s le_rfl h (.stop le_rfl) hs ⟨_, ar _ hu, q⟩ _ (ar _ ht) e
      rw [← this, Prod.swap_swap]
      exact .inr ⟨rfl, le_rfl⟩
    · rw [tr, Prod.swap_swap]
      exact ih fun j x2 y2 v2 s2 h1 h2 h3 => hn j x2 y2 v2 s2 (by omega) h2 (.move (by omega) hs h3)

section
variable {me : Measure} {dRow dCol : Disp} {n k it : Nat} {g : Kernel K} {r c fr lr fc lc : Int} {cost cost' : K → K → F K}
  {invalid r0 c0 s0 row col score : F K}

/-- The same pixel with the axes exchanged, and other costs which are the same where they are read. -/
theorem searched_exchanged (hn : n = 2 ^ k)
    (hc : ∀ x y, ReadPair dRow dCol n g.before (g.size - 1 - g.before) r c x y → cost' x y = cost x y)
    (b : BestPair me (AskedPair dRow dCol n r c) cost invalid r0 c0 s0)
    (p : SearchedPixel me (seen dRow dCol fr lr fc lc r c cost) (filtered g n (seen dRow dCol fr lr fc lc r c cost)) k it
      (initAt dRow r c - dRow.range) (initAt dRow r c + dRow.range) (initAt dCol r c - dCol.range) (initAt dCol r c + dCol.range)
      invalid r0 c0 row col score)
    (hno : ∀ x y, AskedPair dRow dCol n r c x y →
      (((initAt dRow r c - dRow.range : Int)) : K) < x ∧ x < ((initAt dRow r c + dRow.range : Int) : K) →
      (((initAt dCol r c - dCol.range : Int)) : K) < y ∧ y < ((initAt dCol r c + dCol.range : Int) : K) →
      seen dRow dCol fr lr fc lc r c cost' x y ≠ .nan →
      NoTies me (filtered g n (seen dRow dCol fr lr fc lc r c cost')) it k x y (seen dRow dCol fr lr fc lc r c cost' x y)) :
    SearchedPixel me (seen dCol dRow fc lc fr lr r c fun x y => cost' y x) (filtered g n (seen dCol dRow fc lc fr lr r c fun x y => cost' y x)) k it
      (initAt dCol r c - dCol.range) (initAt dCol r c + dCol.range) (initAt dRow r c - dRow.range) (initAt dRow r c + dRow.range)
      invalid c0 r0 col row score := by
  have hnp : 0 < n := by rw [hn]; positivity
  have e1 : (seen dCol dRow fc lc fr lr r c fun x y => cost' y x) = fun x y => seen dRow dCol fr lr fc lc r c cost' y x := by
    funext x y
    exact seen_exchanged dRow dCol fr lr fc lc r c cost' x y
  have e2 : filtered g n (fun x y => seen dRow dCol fr lr fc lc r c cost' y x) = fun x y => filtered g n (seen dRow dCol fr lr fc lc r c cost') y x := by
    funext x y
    exact filtered_exchanged g n _ x y
  rw [e1, e2]
  have one : ∀ v : F K, F.mul (.fin 1) v = v := by
    intro v
    cases v <;> simp [F.mul]
  have wide : ∀ x y : K, AskedPair dRow dCol n r c x y → ReadPair dRow dCol n g.before (g.size - 1 - g.before) r c x y := by
    rintro x y ⟨h1, ⟨h2, h3⟩, h4, h5⟩
    exact ⟨h1, ⟨le_trans (Int.cast_le.2 (by omega)) h2, le_trans h3 (Int.cast_le.2 (by omega))⟩,
      le_trans (Int.cast_le.2 (by omega)) h4, le_trans h5 (Int.cast_le.2 (by omega))⟩
  have hseen : ∀ x y, ReadPair dRow dCol n g.before (g.size - 1 - g.before) r c x y →
      seen dRow dCol fr lr fc lc r c cost' x y = seen dRow dCol fr lr fc lc r c cost x y := by
    intro x y h
    unfold seen
    split_ifs
    · exact hc x y h
    · rfl
  have pair : ∀ x y, r0 = .fin x → c0 = .fin y → r0 ≠ invalid → AskedPair dRow dCol n r c x y := by
    intro x y ex ey hu
    by_cases hex : ∃ x y, AskedPair dRow dCol n r c x y ∧ cost x y ≠ .nan
    swap
    · push Not at hex
      exact absurd (b.invalid hex).1 hu
    obtain ⟨x0, y0, ex', ey', ⟨y', q1, -⟩, ⟨x', q2, -⟩, -⟩ := b.smallest hex
    rw [ex, F.fin.injEq] at ex'
    rw [ey, F.fin.injEq] at ey'
    subst ex' ey'
    obtain ⟨⟨m1, -, hm1, -⟩, hx, -⟩ := q1
    obtain ⟨⟨-, m2, -, hm2⟩, -, hy⟩ := q2
    exact ⟨⟨m1, m2, hm1, hm2⟩, hx, hy⟩
  refine ⟨fun h => ?_, fun y x ey ex iy ix h => ?_, fun y x ey ex iy ix h hne => ?_⟩
  · obtain ⟨q1, q2, q3⟩ := p.unusable h.symm
    exact ⟨q2, q1, q3⟩
  · have hs := hseen x y (wide _ _ (pair x y ex ey ix))
    simp only [hs] at h ⊢
    obtain ⟨q1, q2, q3⟩ := p.kept x y ex ey ix iy (h.imp Or.symm id)
    exact ⟨q2, q1, q3⟩
  · have hp := pair x y ex ey ix
    have hs := hseen x y (wide _ _ hp)
    have hno' := hno x y hp
    simp only [hs] at hne hno' ⊢
    obtain ⟨x1, y1, v1, q1, q2, q3, t1⟩ := p.searched x y ex ey ix iy (fun q => h q.symm) hne
    rw [not_or] at h
    obtain ⟨k2, k1⟩ := h
    unfold AtEnd at k1 k2
    rw [ex, F.fin.injEq, F.fin.injEq, not_or] at k1
    rw [ey, F.fin.injEq, F.fin.injEq, not_or] at k2
    obtain ⟨⟨m1, m2, hm1, hm2⟩, hx, hy⟩ := hp
    have hxs : (((initAt dRow r c - dRow.range : Int)) : K) < x ∧ x < ((initAt dRow r c + dRow.range : Int) : K) :=
      ⟨lt_of_le_of_ne hx.1 (Ne.symm k1.1), lt_of_le_of_ne hx.2 k1.2⟩
    have hys : (((initAt dCol r c - dCol.range : Int)) : K) < y ∧ y < ((initAt dCol r c + dCol.range : Int) : K) :=
      ⟨lt_of_le_of_ne hy.1 (Ne.symm k2.1), lt_of_le_of_ne hy.2 k2.2⟩
    have hnk : (1 : K) / n = 1 / 2 ^ k := by rw [hn]; push_cast; rfl
    have t2 := path_scaled one_pos t1 (val' := filtered g n (seen dRow dCol fr lr fc lc r c cost')) fun x2 y2 h1 h2 => by
      rw [← hnk] at h1 h2
      refine filtered_scaled one_pos fun a ha b hb => ?_
      rw [one]
      refine hseen _ _ ?_
      obtain ⟨⟨z1, w1⟩, w2, w3⟩ := node_inside hnp ⟨m1, hm1⟩ hxs h1 ha
      obtain ⟨⟨z2, w4⟩, w5, w6⟩ := node_inside hnp ⟨m2, hm2⟩ hys h2 hb
      exact ⟨⟨z1, z2, w1, w4⟩, ⟨w2, w3⟩, w5, w6⟩
    rw [one, one] at t2
    exact ⟨y1, x1, v1, q2, q1, q3, path_exchanged t2 (hno' hxs hys hne)⟩

end

/-- Transposed intervals have the same first and last disparities. -/
theorem extent_transposed {d d' : Disp} {left left' : Img K} {H W : Nat} {f l f' l' : Int} (hs : left.h = H ∧ left.w = W) (hs' : left'.h = W ∧ left'.w = H)
    (h0 : left.row0 = 0 ∧ left.col0 = 0) (h0' : left'.row0 = 0 ∧ left'.col0 = 0)
    (hi : TransposedIntervals d d' H W) (h : Extent d left f l) (h' : Extent d' left' f' l') : f' = f ∧ l' = l := by
  obtain ⟨⟨e1, e2⟩, e3, e4⟩ := And.intro h0 h0'
  have a1 := h.inside
  have a2 := h'.inside
  obtain ⟨u1, hu1, v1, hv1, w1⟩ := h.reached
  obtain ⟨u2, hu2, v2, hv2, w2⟩ := h.reached'
  obtain ⟨u3, hu3, v3, hv3, w3⟩ := h'.reached
  obtain ⟨u4, hu4, v4, hv4, w4⟩ := h'.reached'
  rw [hs.1] at hu1 hu2 a1
  rw [hs.2] at hv1 hv2 a1
  rw [hs'.1] at hu3 hu4 a2
  rw [hs'.2] at hv3 hv4 a2
  rw [e1, e2] at w1 w2 a1
  rw [e3, e4] at w3 w4 a2
  simp only [zero_add] at w1 w2 w3 w4 a1 a2
  obtain ⟨i1, -⟩ := hi u1 hu1 v1 hv1
  obtain ⟨-, i2⟩ := hi u2 hu2 v2 hv2
  obtain ⟨i3, -⟩ := hi v3 hv3 u3 hu3
  obtain ⟨-, i4⟩ := hi v4 hv4 u4 hu4
  have b1 := (a2 v1 hv1 u1 hu1).1
  have b2 := (a2 v2 hv2 u2 hu2).2
  have b3 := (a1 v3 hv3 u3 hu3).1
  have b4 := (a1 v4 hv4 u4 hu4).2
  constructor <;> omega

/-- C134 (partial): exchanging the rows and the columns of the images exchanges the disparities refined by a dichotomy. Two successful executions on
full images, without estimation, with disparities of whole pixels before the refinement and the same window cost, invalid value, iterations and kernel,
whose measure does not depend on the order of the pixels in the window: the images of the second have the rows of the first as columns, with their
masks, and its intervals of row disparities are the intervals of column disparities of the first, and conversely. The row disparity of one is the
column disparity of the other at the transposed pixel, and the scores are the same. Proved at the pixels whose search never has to choose between two
best moves. Missing: the other ones, where the move of the smallest row is preferred (`C134_false`). -/
theorem C134_transposed_dichotomy_partial (w w' : World K) (user user' p p' mc mc' inp inp' l r l' r' f f' : Fields) (out out' : List (Written K))
    (H W : Nat) (dRow dCol dRow' dCol' : Disp) (invalid : F K) (hw : Nat) (me : Measure) (ker : List (F K × F K) → F K) (it : Nat) (g : Kernel K)
    (wf : user.wf) (wf' : user'.wf)
    (hdisk : DiskContract w H W) (hpan : PandoraContract w) (hkeeps : PandoraKeeps w.pandora) (hzoom : w.run.zoom = zoomLinear)
    (hdisk' : DiskContract w' W H) (hpan' : PandoraContract w') (hkeeps' : PandoraKeeps w'.pandora) (hzoom' : w'.run.zoom = zoomLinear)
    (cfg : Dichotomised w user p mc inp l r f H W dRow dCol invalid 1 hw me ker it g)
    (cfg' : Dichotomised w' user' p' mc' inp' l' r' f' W H dRow' dCol' invalid 1 hw me ker it g) (hHW : 2 ≤ H ∧ 2 ≤ W) (hk : OrderFree ker)
    (himg : ∀ left right left' right', ImagesRead w l r none left right → ImagesRead w' l' r' none left' right' →
      Transposed left left' ∧ Transposed right right')
    (hnd : ∀ left right, ImagesRead w l r none left right → right.noData ≠ .nan)
    (hr : TransposedIntervals dRow dCol' H W) (hc : TransposedIntervals dCol dRow' H W)
    (h : Main.main w user = (out, none)) (h' : Main.main w' user' = (out', none)) :
    ∃ files rest files' rest' left right, out = .rasters files :: rest ∧ out' = .rasters files' :: rest' ∧ ImagesRead w l r none left right ∧
      (∀ f ∈ [files.row, files.col, files.score], f.h = H ∧ f.w = W) ∧ (∀ f ∈ [files'.row, files'.col, files'.score], f.h = W ∧ f.w = H) ∧
      ∀ a < H, ∀ b < W, NeverChooses me g it hw ker left right dRow dCol a b →
        files'.col.values b a = files.row.values a b ∧ files'.row.values b a = files.col.values a b ∧
          files'.score.values b a = files.score.values a b := by
  obtain ⟨s⟩ := dichotomised_stages cfg wf hpan h
  obtain ⟨s'⟩ := dichotomised_stages cfg' wf' hpan' h'
  obtain ⟨k, fr, lr, fc, lc, gmin, gmax, hk1, im, ⟨sl, sr⟩, o, ⟨x1, x2⟩, hg, z, key⟩ := s.dichotomised cfg wf hdisk hkeeps hzoom hHW
  obtain ⟨k', fr', lr', fc', lc', gmin', gmax', hk1', im', ⟨sl', sr'⟩, o', ⟨x1', x2'⟩, hg', z', key'⟩ :=
    s'.dichotomised cfg' wf' hdisk' hkeeps' hzoom' hHW.symm
  obtain ⟨tl, tr⟩ := himg _ _ _ _ im im'
  have hnd1 := hnd _ _ im
  have hnd2 : s'.right.img.noData ≠ .nan := by rw [tr.noData]; exact hnd1
  obtain rfl : k' = k := Nat.pow_right_injective (le_refl 2) (hk1'.symm.trans hk1)
  obtain rfl : k' = 0 := by
    rcases Nat.eq_zero_or_pos k' with h0 | h0
    · exact h0
    · have := Nat.one_lt_two_pow (n := k') (by omega)
      omega
  obtain ⟨rfl, rfl⟩ := extent_transposed sl sl' o o' hr x1 x2'
  obtain ⟨rfl, rfl⟩ := extent_transposed sl sl' o o' hc x2 x1'
  refine ⟨s.files, _, s'.files, _, s.left.img, s.right.img, s.outIs, s'.outIs, im, z, z', fun a ha b hb never => ?_⟩
  obtain ⟨r0, c0, s0, cost, e1, b1, p1⟩ := key a ha b hb
  obtain ⟨r1, c1, s1, cost', e2, b2, p2⟩ := key' b hb a ha
  obtain ⟨g1, g2⟩ := hg a ha b hb
  obtain ⟨g1', g2'⟩ := hg' b hb a ha
  obtain ⟨q1, q2⟩ := hr a ha b hb
  obtain ⟨q3, q4⟩ := hc a ha b hb
  -- the costs read are those of whole displacements
  have hcost : ∀ x y, ReadPair dRow dCol 1 g.before (g.size - 1 - g.before) a b x y →
      costAt hw ker s.left.img s.right.img a b x y = cost x y := by
    rintro x y ⟨⟨kx, ky, hx, hy⟩, -, u3, u4⟩
    rw [Nat.cast_one, mul_one] at hx hy
    subst hx hy
    rw [e1, slab_int, costAt, Int.floor_intCast, Int.floor_intCast, window_whole hnd1]
    rw [g1, g2]
    exact ⟨Int.cast_le.1 u3, Int.cast_le.1 u4⟩
  have hcost' : ∀ x y, ReadPair dCol dRow 1 g.before (g.size - 1 - g.before) a b x y →
      cost' x y = costAt hw ker s.left.img s.right.img a b y x := by
    rintro x y ⟨⟨kx, ky, hx, hy⟩, -, u3, u4⟩
    rw [Nat.cast_one, mul_one] at hx hy
    subst hx hy
    rw [e2, slab_int, costAt, Int.floor_intCast, Int.floor_intCast, window_whole hnd2, wholeCost_transposed hk tl tr (by omega) (by omega)]
    rw [g1', g2', ← q1, ← q2]
    exact ⟨Int.cast_le.1 u3, Int.cast_le.1 u4⟩
  have wide : ∀ x y : K, AskedPair dRow dCol 1 a b x y → ReadPair dRow dCol 1 g.before (g.size - 1 - g.before) a b x y := by
    rintro x y ⟨h1, ⟨h2, h3⟩, h4, h5⟩
    exact ⟨h1, ⟨le_trans (Int.cast_le.2 (by omega)) h2, le_trans h3 (Int.cast_le.2 (by omega))⟩,
      le_trans (Int.cast_le.2 (by omega)) h4, le_trans h5 (Int.cast_le.2 (by omega))⟩
  have p3 := searched_exchanged (cost' := costAt hw ker s.left.img s.right.img a b) hk1 hcost b1 p1 fun x y ask hx hy hs => by
    obtain ⟨⟨kx, ky, ex, ey⟩, -⟩ := ask
    rw [Nat.cast_one, mul_one] at ex ey
    subst ex ey
    have hv : seen dRow dCol fc' lc' fr' lr' (a : Int) (b : Int) (costAt hw ker s.left.img s.right.img a b) (kx : K) (ky : K) =
        costAt hw ker s.left.img s.right.img a b kx ky := by
      unfold seen at hs ⊢
      by_cases hq : ReadDisp dRow fc' lc' (a : Int) (b : Int) (kx : K) ∧ ReadDisp dCol fr' lr' (a : Int) (b : Int) (ky : K)
      · rw [if_pos hq]
      · rw [if_neg hq] at hs
        exact absurd rfl hs
    rw [hv]
    exact never _ _ _ _ x1 x2 kx ky ⟨Int.cast_lt.1 hx.1, Int.cast_lt.1 hx.2⟩ ⟨Int.cast_lt.1 hy.1, Int.cast_lt.1 hy.2⟩
  have b3 : BestPair me (AskedPair dCol dRow 1 (a : Int) (b : Int)) (fun x y => costAt hw ker s.left.img s.right.img a b y x) invalid c0 r0 s0 := by
    refine best_asked (fun x y => ?_) (best_exchanged (best_congr (fun x y q => (hcost x y (wide x y q)).symm) b1))
    exact ⟨fun ⟨⟨u, v, h1, h2⟩, h3, h4⟩ => ⟨⟨v, u, h2, h1⟩, h4, h3⟩, fun ⟨⟨u, v, h1, h2⟩, h3, h4⟩ => ⟨⟨v, u, h2, h1⟩, h4, h3⟩⟩
  obtain ⟨d1, d2, d3⟩ := searched_moved (cost' := cost') hk1 ⟨q3, q4⟩ ⟨q1, q2⟩ hcost' b3 p3 b2 p2
  exact ⟨d2, d1, d3⟩

/-! ## Examples -/

/-- The interpolation of numbers. -/
theorem filtered_numbers {g : Kernel K} {n : Nat} {cost : K → K → F K} {x y : K} (u : Nat → Nat → K)
    (h : ∀ a < g.size, ∀ b < g.size, cost (node g n x a) (node g n y b) = .fin (u a b)) :
    filtered g n cost x y = .fin (∑ a ∈ Finset.range g.size, ∑ b ∈ Finset.range g.size,
      g.weight (Int.fract (x * n)) a * g.weight (Int.fract (y * n)) b * u a b) := by
  unfold filtered
  rw [if_neg]
  · congr 1
    refine Finset.sum_congr rfl fun a ha => Finset.sum_congr rfl fun b hb => ?_
    rw [h a (Finset.mem_range.1 ha) b (Finset.mem_range.1 hb)]
    rfl
  · rintro ⟨a, ha, b, hb, e⟩
    rw [h a ha b hb] at e
    exact absurd e (by simp)

/-- A right image of numbers. -/
def exNumbers (ρ : Nat → Nat → ℚ) : Nat → Nat → F ℚ := fun x y => .fin (ρ x y)

/-- The costs of the pixel of row 2 and column 2 are the values of the right image around it. -/
theorem exNumbers_cost (ρ : Nat → Nat → ℚ) (hρ : ∀ x y, 0 ≤ ρ x y) (x y : Int) (hx : -2 ≤ x ∧ x ≤ 3) (hy : -2 ≤ y ∧ y ≤ 3) :
    costAt 0 sad (exImgSix fun _ _ => .fin 0) (exImgSix (exNumbers ρ)) 2 2 (x : ℚ) (y : ℚ) = .fin (ρ (2 + x).toNat (2 + y).toNat) := by
  unfold costAt wholeCost
  rw [Int.floor_intCast, Int.floor_intCast, if_pos]
  · simp [wholePairs, exImgSix, exNumbers, sad, sumOf, F.add, abs_of_nonneg (hρ _ _)]
  · refine ⟨?_, fun _ _ _ _ _ _ => rfl, rfl, fun x y _ _ _ _ => ?_⟩
    · simp only [BothInside, exImgSix]
      omega
    · simp only [exImgSix, exNumbers, exLeftImg, ne_eq, F.fin.injEq]
      have := hρ x y
      linarith

/-- The weights of the interpolation after a move of half a pixel, and the pixels read. -/
def exWeight (s : Int) (a : Nat) : ℚ := if s = 0 then (if a = 1 then 1 else 0) else if a = 0 ∨ a = 3 then -1 / 16 else 9 / 16
def exPixel (s : Int) (a : Nat) : Nat := if s < 0 then a else a + 1

theorem exNode (s : Int) (hs : -1 ≤ s ∧ s ≤ 1) (a : Nat) :
    node keysKernel 1 (0 + (s : ℚ) * (1 / 2 ^ (0 + 1))) a = (((exPixel s a : Int) - 2 : Int) : ℚ) := by
  have : s = -1 ∨ s = 0 ∨ s = 1 := by omega
  have h1 : ⌊(0 + ((-1 : Int) : ℚ) * (1 / 2 ^ (0 + 1))) * (1 : Nat)⌋ = -1 := by decide +kernel
  have h2 : ⌊(0 + ((0 : Int) : ℚ) * (1 / 2 ^ (0 + 1))) * (1 : Nat)⌋ = 0 := by decide +kernel
  have h3 : ⌊(0 + ((1 : Int) : ℚ) * (1 / 2 ^ (0 + 1))) * (1 : Nat)⌋ = 0 := by decide +kernel
  rcases this with rfl | rfl | rfl
  · rw [node, h1]; simp [keysKernel, exPixel]; ring
  · rw [node, h2]; simp [keysKernel, exPixel]; ring
  · rw [node, h3]; simp [keysKernel, exPixel]; ring

theorem exFract (s : Int) (hs : -1 ≤ s ∧ s ≤ 1) (a : Nat) (ha : a < 4) :
    keysKernel.weight (Int.fract ((0 + (s : ℚ) * (1 / 2 ^ (0 + 1))) * (1 : Nat))) a = exWeight s a := by
  have h1 : s = -1 ∨ s = 0 ∨ s = 1 := by omega
  have h2 : a = 0 ∨ a = 1 ∨ a = 2 ∨ a = 3 := by omega
  rcases h1 with rfl | rfl | rfl <;> rcases h2 with rfl | rfl | rfl | rfl <;> decide +kernel

/-- The values of the filter after a move of half a pixel from the pixel of row 2 and column 2. -/
theorem exNumbers_filtered (ρ : Nat → Nat → ℚ) {cost : ℚ → ℚ → F ℚ}
    (hc : ∀ x y : Int, -2 ≤ x ∧ x ≤ 3 → -2 ≤ y ∧ y ≤ 3 → cost (x : ℚ) (y : ℚ) = .fin (ρ (2 + x).toNat (2 + y).toNat))
    (s t : Int) (hs : -1 ≤ s ∧ s ≤ 1) (ht : -1 ≤ t ∧ t ≤ 1) :
    filtered keysKernel 1 (seen ⟨.const 0, 1⟩ ⟨.const 0, 1⟩ (-1) 1 (-1) 1 ((2 : Nat) : Int) ((2 : Nat) : Int) cost) (0 + (s : ℚ) * (1 / 2 ^ (0 + 1)))
      (0 + (t : ℚ) * (1 / 2 ^ (0 + 1))) =
    .fin (∑ a ∈ Finset.range 4, ∑ b ∈ Finset.range 4, exWeight s a * exWeight t b * ρ (exPixel s a) (exPixel t b)) := by
  have rd : ∀ x : Int, ReadDisp ⟨.const 0, 1⟩ (-1) 1 ((2 : Nat) : Int) ((2 : Nat) : Int) (x : ℚ) := by
    intro x
    unfold ReadDisp
    simp only [initAt, Int.cast_le, Int.cast_lt]
    omega
  have pl : ∀ (s : Int), -1 ≤ s ∧ s ≤ 1 → ∀ a < 4, -2 ≤ (exPixel s a : Int) - 2 ∧ (exPixel s a : Int) - 2 ≤ 3 := by
    intro s hs a ha
    unfold exPixel
    split_ifs <;> push_cast <;> omega
  rw [filtered_numbers (fun a b => ρ (exPixel s a) (exPixel t b)) fun a ha b hb => ?_]
  · congr 1
    refine Finset.sum_congr rfl fun a ha => Finset.sum_congr rfl fun b hb => ?_
    rw [exFract s hs a (Finset.mem_range.1 ha), exFract t ht b (Finset.mem_range.1 hb)]
  · rw [exNode s hs, exNode t ht, seen, if_pos ⟨rd _, rd _⟩, hc _ _ (pl s hs a ha) (pl t ht b hb)]
    congr 2 <;> omega

theorem exUserBoxFull_dicho (fl fr : Nat → Nat → F ℚ) :
    ∃ p mc inp f, Dichotomised (exWorldBox 0 fl fr) (exUserBoxFull 0 1) p mc inp exL exR f 6 6 ⟨.const 0, 1⟩ ⟨.const 0, 1⟩ .nan 1 0 .min sad 1
      keysKernel :=
  ⟨_, _, _, _, rfl, rfl, rfl, rfl, rfl, rfl, rfl, rfl, ⟨_, 1, rfl, .inl rfl, by omega⟩, ⟨_, rfl, .inl ⟨rfl, rfl⟩⟩, rfl,
    ⟨_, _, _, _, _, .int 1, rfl, rfl, rfl, .inl rfl, rfl, rfl⟩, 1, 1, exUserBoxFull_asks 0 fl fr 0 1⟩

theorem exExtent {img : Img ℚ} {f l : Int} (h : Extent ⟨.const 0, 1⟩ img f l) : f = -1 ∧ l = 1 := by
  obtain ⟨_, _, _, _, e1⟩ := h.reached
  obtain ⟨_, _, _, _, e2⟩ := h.reached'
  simp only [initAt] at e1 e2
  omega

/-- A right image whose best displacement of half a pixel is down and to the left of the pixel of row 2 and column 2. -/
def exSlope (x y : Nat) : ℚ :=
  (match x with | 1 => 3 | 2 => 1 | 3 => 2 | 4 => 12 | _ => 0) * (match y with | 0 => 20 | 1 => 3 | 2 => 1 | 3 => 4 | _ => 0)

theorem exSlope_nonneg (x y : Nat) : 0 ≤ exSlope x y := by
  unfold exSlope
  refine mul_nonneg ?_ ?_ <;> split <;> norm_num

theorem exSlope_never : NeverChooses .min keysKernel 1 0 sad (exImgSix fun _ _ => .fin 0) (exImgSix (exNumbers exSlope)) ⟨.const 0, 1⟩ ⟨.const 0, 1⟩ 2 2 := by
  intro fr lr fc lc e1 e2 x y hx hy
  obtain ⟨rfl, rfl⟩ := exExtent e1
  obtain ⟨rfl, rfl⟩ := exExtent e2
  simp only [initAt] at hx hy
  obtain rfl : x = 0 := by omega
  obtain rfl : y = 0 := by omega
  have hc := exNumbers_cost exSlope exSlope_nonneg
  intro j x' y' v' s h1 h2 path best hex t ht e
  obtain rfl : j = 0 := by omega
  cases path with
  | move h => exact absurd h (by omega)
  | stop h =>
    have val : ∀ t : Int × Int, Around t → tried (filtered keysKernel 1 (seen ⟨.const 0, 1⟩ ⟨.const 0, 1⟩ (-1) 1 (-1) 1 ((2 : Nat) : Int) ((2 : Nat) : Int)
        (costAt 0 sad (exImgSix fun _ _ => .fin 0) (exImgSix (exNumbers exSlope)) 2 2))) (1 / 2 ^ (0 + 1)) ((0 : Int) : ℚ) ((0 : Int) : ℚ)
        (costAt 0 sad (exImgSix fun _ _ => .fin 0) (exImgSix (exNumbers exSlope)) 2 2 ((0 : Int) : ℚ) ((0 : Int) : ℚ)) t =
        .fin (∑ a ∈ Finset.range 4, ∑ b ∈ Finset.range 4, exWeight t.1 a * exWeight t.2 b * exSlope (exPixel t.1 a) (exPixel t.2 b)) := by
      intro t ht
      unfold tried
      split_ifs with h0
      · rw [hc 0 0 (by omega) (by omega), h0]
        decide +kernel
      · rw [Int.cast_zero]
        exact exNumbers_filtered exSlope hc t.1 t.2 ht.1 ht.2
    have only : ∀ t : Int × Int, Around t → (∑ a ∈ Finset.range 4, ∑ b ∈ Finset.range 4, exWeight t.1 a * exWeight t.2 b *
        exSlope (exPixel t.1 a) (exPixel t.2 b)) ≤ 9 / 16 → t = (1, -1) := by
      rintro ⟨t1, t2⟩ ⟨h3, h4⟩ h5
      simp only at h3 h4 h5
      have q1 : t1 = -1 ∨ t1 = 0 ∨ t1 = 1 := by omega
      have q2 : t2 = -1 ∨ t2 = 0 ∨ t2 = 1 := by omega
      revert h5
      rcases q1 with rfl | rfl | rfl <;> rcases q2 with rfl | rfl | rfl <;> decide +kernel
    have a0 : Around ((1, -1) : Int × Int) := ⟨by omega, by omega⟩
    have b0 := best.best (1, -1) a0 (by rw [val _ a0]; simp)
    rw [val _ a0, val _ best.around] at b0
    have hs : s = (1, -1) := by
      refine only s best.around ?_
      simp only [AtLeastAsGood, F.le, decide_eq_true_eq] at b0
      exact b0.trans (by decide +kernel)
    rw [val _ ht, val _ best.around, F.fin.injEq] at e
    rw [hs]
    refine only t ht ?_
    rw [e, hs]
    decide +kernel

theorem exTransposed (f f' : Nat → Nat → F ℚ) (h : ∀ x y, f' y x = f x y) : Transposed (exImgSix f) (exImgSix f') :=
  ⟨rfl, fun x _ y _ => h x y, fun _ _ _ _ => rfl, fun _ _ _ _ => rfl⟩

/-- The pixel of row 2 and column 2 of these images, and of the transposed ones. -/
example : ∃ files rest files' rest',
    Main.main (exWorldBox 0 (fun _ _ => .fin 0) (exNumbers exSlope)) (exUserBoxFull 0 1) = (.rasters files :: rest, none) ∧
    Main.main (exWorldBox 0 (fun _ _ => .fin 0) (exNumbers fun x y => exSlope y x)) (exUserBoxFull 0 1) = (.rasters files' :: rest', none) ∧
    files'.col.values 2 2 = files.row.values 2 2 ∧ files'.row.values 2 2 = files.col.values 2 2 ∧
      files'.score.values 2 2 = files.score.values 2 2 := by
  obtain ⟨_, _, _, _, cfg⟩ := exUserBoxFull_dicho (fun _ _ => .fin 0) (exNumbers exSlope)
  obtain ⟨_, _, _, _, cfg'⟩ := exUserBoxFull_dicho (fun _ _ => .fin 0) (exNumbers fun x y => exSlope y x)
  have ct := exWorldBox_contract 0 (fun _ _ => .fin 0) (exNumbers exSlope)
  have ct' := exWorldBox_contract 0 (fun _ _ => .fin 0) (exNumbers fun x y => exSlope y x)
  have h1 := exUserBoxFull_runs 0 (fun _ _ => .fin 0) (exNumbers exSlope) 0 1 (by decide +kernel)
  have h2 := exUserBoxFull_runs 0 (fun _ _ => .fin 0) (exNumbers fun x y => exSlope y x) 0 1 (by decide +kernel)
  obtain ⟨files, rest, files', rest', left, right, o, o', im, -, -, key⟩ := C134_transposed_dichotomy_partial _ _ _ _ _ _ _ _ _ _ _ _ _ _ _ _
    _ _ 6 6 _ _ _ _ .nan 0 .min sad 1 keysKernel (exUserBoxFull_wf 0 1) (exUserBoxFull_wf 0 1) ct.disk ct.pandora ct.keeps rfl ct'.disk ct'.pandora
    ct'.keeps rfl cfg cfg' (by decide) (sumOf_orderFree _) (fun left right left' right' i i' => by
      obtain ⟨rfl, rfl⟩ := exWorldBox_images _ _ _ _ _ i
      obtain ⟨rfl, rfl⟩ := exWorldBox_images _ _ _ _ _ i'
      exact ⟨exTransposed _ _ fun _ _ => rfl, exTransposed _ _ fun _ _ => rfl⟩) (fun left right i => by
      obtain ⟨rfl, rfl⟩ := exWorldBox_images _ _ _ _ _ i
      simp [exImgSix, exLeftImg]) (fun _ _ _ _ => ⟨rfl, rfl⟩) (fun _ _ _ _ => ⟨rfl, rfl⟩) h1 h2
  obtain ⟨rfl, rfl⟩ := exWorldBox_images _ _ _ _ _ im
  exact ⟨files, rest, files', rest', by rw [h1]; exact congrArg (·, none) o, by rw [h2]; exact congrArg (·, none) o',
    key 2 (by decide) 2 (by decide) exSlope_never⟩

/-! ### Counterexample -/

/-- The full statement of C134: the disparities are exchanged at every pixel. -/
def C134Statement : Prop :=
  ∀ (w w' : World ℚ) (user user' p p' mc mc' inp inp' l r l' r' f f' : Fields) (out out' : List (Written ℚ))
    (H W : Nat) (dRow dCol dRow' dCol' : Disp) (invalid : F ℚ) (hw : Nat) (me : Measure) (ker : List (F ℚ × F ℚ) → F ℚ) (it : Nat) (g : Kernel ℚ),
    user.wf → user'.wf → DiskContract w H W → PandoraContract w → PandoraKeeps w.pandora → w.run.zoom = zoomLinear →
    DiskContract w' W H → PandoraContract w' → PandoraKeeps w'.pandora → w'.run.zoom = zoomLinear →
    Dichotomised w user p mc inp l r f H W dRow dCol invalid 1 hw me ker it g →
    Dichotomised w' user' p' mc' inp' l' r' f' W H dRow' dCol' invalid 1 hw me ker it g → 2 ≤ H ∧ 2 ≤ W → OrderFree ker →
    (∀ left right left' right', ImagesRead w l r none left right → ImagesRead w' l' r' none left' right' →
      Transposed left left' ∧ Transposed right right') →
    (∀ left right, ImagesRead w l r none left right → right.noData ≠ .nan) →
    TransposedIntervals dRow dCol' H W → TransposedIntervals dCol dRow' H W →
    Main.main w user = (out, none) → Main.main w' user' = (out', none) →
    ∃ files rest files' rest', out = .rasters files :: rest ∧ out' = .rasters files' :: rest' ∧
      ∀ a < H, ∀ b < W, files'.col.values b a = files.row.values a b ∧ files'.row.values b a = files.col.values a b ∧
        files'.score.values b a = files.score.values a b

/-- A right image which is its own transposed image, with two best displacements of half a pixel: down, and to the right. -/
def exValley (x y : Nat) : ℚ :=
  if (x, y) = (2, 2) then 0 else if (x, y) ∈ [(1, 1), (3, 3)] then 100 else if (x, y) ∈ [(1, 2), (2, 1), (2, 4), (4, 2)] then 5 else 1

theorem exValley_nonneg (x y : Nat) : 0 ≤ exValley x y := by
  unfold exValley
  split_ifs <;> norm_num

theorem exValley_symm (x y : Nat) : exValley y x = exValley x y := by
  unfold exValley
  simp only [Prod.mk.injEq, List.mem_cons, List.not_mem_nil, or_false]
  congr 1
  · simp only [eq_iff_iff]; omega
  · congr 1
    · simp only [eq_iff_iff]; omega
    · congr 1
      simp only [eq_iff_iff]; omega

/-- At the pixel of row 2 and column 2 of these images, the refined disparities are different. -/
theorem exValley_pixel {user p mc inp f : Fields} {out : List (Written ℚ)} (wf : user.wf)
    (cfg : Dichotomised (exWorldBox 0 (fun _ _ => .fin 0) (exNumbers exValley)) user p mc inp exL exR f 6 6 ⟨.const 0, 1⟩ ⟨.const 0, 1⟩ .nan 1 0 .min sad 1
      keysKernel) (h : Main.main (exWorldBox 0 (fun _ _ => .fin 0) (exNumbers exValley)) user = (out, none)) :
    ∃ files rest, out = .rasters files :: rest ∧ files.row.values 2 2 ≠ files.col.values 2 2 := by
  have ct := exWorldBox_contract 0 (fun _ _ => .fin 0) (exNumbers exValley)
  obtain ⟨s⟩ := dichotomised_stages cfg wf ct.pandora h
  obtain ⟨k, fr, lr, fc, lc, gmin, gmax, hk1, im, -, -, ⟨x1, x2⟩, hg, -, key⟩ := s.dichotomised cfg wf ct.disk ct.keeps rfl (by decide)
  obtain rfl : k = 0 := by
    rcases Nat.eq_zero_or_pos k with h0 | h0
    · exact h0
    · have := Nat.one_lt_two_pow (n := k) (by omega)
      omega
  obtain ⟨rfl, rfl⟩ := exExtent x1
  obtain ⟨rfl, rfl⟩ := exExtent x2
  obtain ⟨i1, i2⟩ := exWorldBox_images _ _ _ _ _ im
  obtain ⟨r0, c0, s0, cost, e1, b1, p1⟩ := key 2 (by decide) 2 (by decide)
  obtain ⟨g1, g2⟩ := hg 2 (by decide) 2 (by decide)
  simp only [initAt, keysKernel] at g1 g2
  have hc : ∀ x y : Int, -2 ≤ x ∧ x ≤ 3 → -2 ≤ y ∧ y ≤ 3 → cost (x : ℚ) (y : ℚ) = .fin (exValley (2 + x).toNat (2 + y).toNat) := by
    intro x y hx hy
    rw [← exNumbers_cost exValley exValley_nonneg x y hx hy, costAt, Int.floor_intCast, Int.floor_intCast, e1, slab_int, i1, i2, window_whole]
    · simp [exImgSix, exLeftImg]
    · omega
  refine ⟨s.files, _, s.outIs, ?_⟩
  simp only [initAt, Nat.cast_ofNat] at p1
  have c00 : cost 0 0 = .fin 0 := by
    have := hc 0 0 (by omega) (by omega)
    rw [Int.cast_zero] at this
    rw [this]
    decide +kernel
  have ask : AskedPair ⟨.const 0, 1⟩ ⟨.const 0, 1⟩ 1 ((2 : Nat) : Int) ((2 : Nat) : Int) (0 : ℚ) 0 := by
    refine ⟨⟨0, 0, by simp, by simp⟩, ?_, ?_⟩ <;> simp [initAt]
  have hex : ∃ x y : ℚ, AskedPair ⟨.const 0, 1⟩ ⟨.const 0, 1⟩ 1 ((2 : Nat) : Int) ((2 : Nat) : Int) x y ∧ cost x y ≠ .nan :=
    ⟨0, 0, ask, by rw [c00]; simp⟩
  obtain ⟨-, q4⟩ := b1.best hex
  have q5 := q4 _ ⟨by rw [c00]; simp, 0, 0, ask, rfl⟩
  rw [c00] at q5
  have zero : ∀ x y : ℚ, AskedPair ⟨.const 0, 1⟩ ⟨.const 0, 1⟩ 1 ((2 : Nat) : Int) ((2 : Nat) : Int) x y → cost x y = s0 → x = 0 ∧ y = 0 := by
    rintro x y ⟨⟨kx, ky, hx, hy⟩, ⟨u1, u2⟩, u3, u4⟩ e
    rw [Nat.cast_one, mul_one] at hx hy
    subst hx hy
    have v1 := Int.cast_le.1 u1
    have v2 := Int.cast_le.1 u2
    have v3 := Int.cast_le.1 u3
    have v4 := Int.cast_le.1 u4
    simp only [initAt] at v1 v2 v3 v4
    rw [hc kx ky (by omega) (by omega)] at e
    rw [← e] at q5
    simp only [AtLeastAsGood, F.le, decide_eq_true_eq] at q5
    have w1 : kx = -1 ∨ kx = 0 ∨ kx = 1 := by omega
    have w2 : ky = -1 ∨ ky = 0 ∨ ky = 1 := by omega
    clear u1 u2 u3 u4 v1 v2 v3 v4 e
    revert q5
    rcases w1 with rfl | rfl | rfl <;> rcases w2 with rfl | rfl | rfl <;> decide +kernel
  obtain ⟨x0, y0, ex, ey, ⟨y', q6, q7⟩, ⟨x', q8, q9⟩, -⟩ := b1.smallest hex
  obtain ⟨rfl, -⟩ := zero _ _ q6 q7
  obtain ⟨-, rfl⟩ := zero _ _ q8 q9
  have sn : seen ⟨.const 0, 1⟩ ⟨.const 0, 1⟩ (-1) 1 (-1) 1 2 2 cost 0 0 = .fin 0 := by
    rw [seen, if_pos ⟨.inl (by simp [initAt]), .inl (by simp [initAt])⟩, c00]
  obtain ⟨x1, y1, v1, d1, d2, -, path⟩ := p1.searched 0 0 ex ey (by rw [ex]; simp) (by rw [ey]; simp) (by
    rw [ex, ey]
    unfold AtEnd
    simp) (by rw [sn]; simp)
  rw [sn] at path
  rw [d1, d2, Ne, F.fin.injEq]
  cases path with
  | stop h => exact absurd h (by omega)
  | @move _ _ _ _ m _ _ _ h hs hp =>
    cases hp with
    | move h => exact absurd h (by omega)
    | stop h =>
      have val : ∀ t : Int × Int, Around t → tried (filtered keysKernel 1 (seen ⟨.const 0, 1⟩ ⟨.const 0, 1⟩ (-1) 1 (-1) 1 2 2
          cost)) (1 / 2 ^ (0 + 1)) 0 0 (.fin 0) t =
          .fin (∑ a ∈ Finset.range 4, ∑ b ∈ Finset.range 4, exWeight t.1 a * exWeight t.2 b * exValley (exPixel t.1 a) (exPixel t.2 b)) := by
        intro t ht
        unfold tried
        split_ifs with h0
        · rw [h0]
          decide +kernel
        · exact exNumbers_filtered exValley hc t.1 t.2 ht.1 ht.2
      intro e
      have a0 : Around ((0, 1) : Int × Int) := ⟨by omega, by omega⟩
      have b0 := hs.best (0, 1) a0 (by rw [val _ a0]; simp)
      rw [val _ a0, val _ hs.around] at b0
      simp only [AtLeastAsGood, F.le, decide_eq_true_eq] at b0
      obtain ⟨m1, m2⟩ := m
      obtain ⟨h3, h4⟩ := hs.around
      simp only at h3 h4 b0 e
      have e' : m1 = m2 := by
        have : (m1 : ℚ) = m2 := by linarith
        exact_mod_cast this
      subst e'
      have q1 : m1 = -1 ∨ m1 = 0 ∨ m1 = 1 := by omega
      revert b0
      rcases q1 with rfl | rfl | rfl <;> decide +kernel

/-- The full statement is false: the move down and the move to the right have the same value, and the smallest row is preferred in both executions. -/
theorem C134_false : ¬ C134Statement := by
  intro hst
  obtain ⟨_, _, _, _, cfg⟩ := exUserBoxFull_dicho (fun _ _ => .fin 0) (exNumbers exValley)
  have ct := exWorldBox_contract 0 (fun _ _ => .fin 0) (exNumbers exValley)
  have h1 := exUserBoxFull_runs 0 (fun _ _ => .fin 0) (exNumbers exValley) 0 1 (by decide +kernel)
  obtain ⟨files, rest, files', rest', o, o', key⟩ := hst _ _ _ _ _ _ _ _ _ _ _ _ _ _ _ _
    _ _ 6 6 _ _ _ _ .nan 0 .min sad 1 keysKernel (exUserBoxFull_wf 0 1) (exUserBoxFull_wf 0 1) ct.disk ct.pandora ct.keeps rfl ct.disk ct.pandora
    ct.keeps rfl cfg cfg (by decide) (sumOf_orderFree _) (fun left right left' right' i i' => by
      obtain ⟨rfl, rfl⟩ := exWorldBox_images _ _ _ _ _ i
      obtain ⟨rfl, rfl⟩ := exWorldBox_images _ _ _ _ _ i'
      exact ⟨exTransposed _ _ fun _ _ => rfl, exTransposed _ _ fun x y => congrArg F.fin (exValley_symm x y)⟩) (fun left right i => by
      obtain ⟨rfl, rfl⟩ := exWorldBox_images _ _ _ _ _ i
      simp [exImgSix, exLeftImg]) (fun _ _ _ _ => ⟨rfl, rfl⟩) (fun _ _ _ _ => ⟨rfl, rfl⟩) h1 h1
  obtain ⟨fs, _, w1, w2⟩ := exValley_pixel (exUserBoxFull_wf 0 1) cfg h1
  have e1 := o.symm.trans w1
  have e2 := o'.symm.trans w1
  simp only [List.cons.injEq, Written.rasters.injEq] at e1 e2
  obtain ⟨rfl, -⟩ := e1
  obtain ⟨rfl, -⟩ := e2
  exact w2 (key 2 (by decide) 2 (by decide)).1.symm

end Verif.Props
