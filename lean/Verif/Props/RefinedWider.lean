import Verif.Props.NoDataRefined
import Verif.Props.Wider
import Verif.Spec.RefinedWider

/-!
# C140: larger intervals with a dichotomy
-/

namespace Verif.Props

open Verif Verif.Config Verif.Machine Verif.ImgTools Verif.MatchingCost Verif.Disparity Verif.Run Verif.Main Verif.Spec Verif.Save

set_option linter.unusedSectionVars false

variable {K : Type} [Field K] [LinearOrder K] [IsStrictOrderedRing K] [FloorRing K]

/-- Values which are the same near the start give the same search. -/
theorem path_local {me : Measure} {val val' : K → K → F K} {it k : Nat} {x y x1 y1 : K} {v v1 : F K} (p : Path me val it k x y v x1 y1 v1)
    (hv : ∀ x' y' : K, |x' - x| < 1 / 2 ^ k → |y' - y| < 1 / 2 ^ k → val' x' y' = val x' y') : Path me val' it k x y v x1 y1 v1 := by
  have one : ∀ v : F K, F.mul (.fin 1) v = v := fun v => by cases v <;> simp [F.mul]
  have t := path_scaled (α := (1 : K)) one_pos p (val' := val') fun x' y' h1 h2 => (hv x' y' h1 h2).trans (one _).symm
  rwa [one, one] at t

theorem filtered_local {g : Kernel K} {n : Nat} {cost cost' : K → K → F K} {x y : K}
    (h : ∀ a < g.size, ∀ b < g.size, cost' (node g n x a) (node g n y b) = cost (node g n x a) (node g n y b)) :
    filtered g n cost' x y = filtered g n cost x y := by
  have one : ∀ v : F K, F.mul (.fin 1) v = v := fun v => by cases v <;> simp [F.mul]
  have t := filtered_scaled (α := (1 : K)) one_pos (cost' := cost') fun a ha b hb => (h a ha b hb).trans (one _).symm
  rwa [one] at t

section
variable {me : Measure} {dRow dCol dRow' dCol' : Disp} {n k it : Nat} {g : Kernel K} {r c fr lr fc lc fr' lr' fc' lc' : Int}
  {cost cost' free : K → K → F K} {invalid r0 c0 s0 row col score r1 c1 s1 row' col' score' : F K}

/-- The best pairs of the larger intervals are in the smaller ones: the winners and the scores are the same. -/
theorem best_nested (hin : ∀ x y : K, AskedPair dRow dCol n r c x y → AskedPair dRow' dCol' n r c x y)
    (hc : ∀ x y, AskedPair dRow dCol n r c x y → cost x y = free x y) (hc' : ∀ x y, AskedPair dRow' dCol' n r c x y → cost' x y = free x y)
    (hb : ∀ x y, IsBestPair me dRow' dCol' n r c free x y → AskedPair dRow dCol n r c x y)
    (b : BestPair me (AskedPair dRow dCol n r c) cost invalid r0 c0 s0) (b' : BestPair me (AskedPair dRow' dCol' n r c) cost' invalid r1 c1 s1) :
    s1 = s0 ∧ ((r0 = invalid ∧ c0 = invalid ∧ r1 = invalid ∧ c1 = invalid) ∨ (r1 = r0 ∧ c1 = c0 ∧
      ∃ x y x' y', r1 = .fin x ∧ c1 = .fin y ∧ IsBestPair me dRow' dCol' n r c free x y' ∧ IsBestPair me dRow' dCol' n r c free x' y)) := by
  by_cases hex : ∃ x y, AskedPair dRow' dCol' n r c x y ∧ cost' x y ≠ .nan
  · obtain ⟨⟨q1, x2, y2, q2, q3⟩, q4⟩ := b'.best hex
    obtain ⟨x, y, e1, e2, ⟨y', t1, t2⟩, ⟨x', t3, t4⟩, t5⟩ := b'.smallest hex
    have top : ∀ u v, AskedPair dRow' dCol' n r c u v → cost' u v = s1 → IsBestPair me dRow' dCol' n r c free u v := by
      intro u v hu hv
      refine ⟨hu, by rw [← hc' u v hu, hv]; exact q1, fun u' v' hu' hv' => ?_⟩
      rw [← hc' u v hu, ← hc' u' v' hu', hv]
      exact q4 _ ⟨by rw [hc' u' v' hu']; exact hv', u', v', hu', rfl⟩
    have eq : ∀ u v, AskedPair dRow dCol n r c u v → cost u v = cost' u v := fun u v hu => by rw [hc u v hu, hc' u v (hin u v hu)]
    have a1 := hb _ _ (top _ _ t1 t2)
    have a2 := hb _ _ (top _ _ t3 t4)
    have b2 : BestPair me (AskedPair dRow dCol n r c) cost invalid r1 c1 s1 := by
      refine ⟨fun hn => ?_, fun _ => ⟨⟨q1, x, y', a1, by rw [eq _ _ a1, t2]⟩, ?_⟩,
        fun _ => ⟨x, y, e1, e2, ⟨y', a1, by rw [eq _ _ a1, t2]⟩, ⟨x', a2, by rw [eq _ _ a2, t4]⟩, fun u v hu hv => t5 u v (hin u v hu) (by rw [← eq u v hu, hv])⟩⟩
      · exact absurd ((eq _ _ a1).symm.trans (hn _ _ a1)) (by rw [t2]; exact q1)
      · rintro w ⟨w1, u, v, hu, rfl⟩
        exact q4 _ ⟨w1, u, v, hin u v hu, (eq u v hu).symm⟩
    obtain ⟨z1, z2, z3⟩ := BestPair.unique b b2
    exact ⟨z3.symm, .inr ⟨z1.symm, z2.symm, x, y, x', y', e1, e2, top _ _ t1 t2, top _ _ t3 t4⟩⟩
  · push Not at hex
    obtain ⟨i1, i2, i5⟩ := b'.invalid hex
    obtain ⟨i3, i4, i6⟩ := b.invalid fun x y q => by rw [hc x y q, ← hc' x y (hin x y q)]; exact hex x y (hin x y q)
    exact ⟨i5.trans i6.symm, .inl ⟨i3, i4, i1, i2⟩⟩

/-- One pixel of the two executions. -/
theorem searched_nested (hn : n = 2 ^ k)
    (ir : initAt dRow' r c - dRow'.range ≤ initAt dRow r c - dRow.range ∧ initAt dRow r c + dRow.range ≤ initAt dRow' r c + dRow'.range)
    (ic : initAt dCol' r c - dCol'.range ≤ initAt dCol r c - dCol.range ∧ initAt dCol r c + dCol.range ≤ initAt dCol' r c + dCol'.range)
    (hc : ∀ x y, AskedPair dRow dCol n r c x y → cost x y = free x y) (hc' : ∀ x y, AskedPair dRow' dCol' n r c x y → cost' x y = free x y)
    (hs : ∀ x y, ReadPair dRow dCol n g.before (g.size - 1 - g.before) r c x y →
      seen dRow' dCol' fr' lr' fc' lc' r c cost' x y = seen dRow dCol fr lr fc lc r c cost x y)
    (hb : ∀ x y, IsBestPair me dRow' dCol' n r c free x y → NotAtEnds dRow dCol r c x y)
    (b : BestPair me (AskedPair dRow dCol n r c) cost invalid r0 c0 s0)
    (p : SearchedPixel me (seen dRow dCol fr lr fc lc r c cost) (filtered g n (seen dRow dCol fr lr fc lc r c cost)) k it
      (initAt dRow r c - dRow.range) (initAt dRow r c + dRow.range) (initAt dCol r c - dCol.range) (initAt dCol r c + dCol.range)
      invalid r0 c0 row col score)
    (b' : BestPair me (AskedPair dRow' dCol' n r c) cost' invalid r1 c1 s1)
    (p' : SearchedPixel me (seen dRow' dCol' fr' lr' fc' lc' r c cost') (filtered g n (seen dRow' dCol' fr' lr' fc' lc' r c cost')) k it
      (initAt dRow' r c - dRow'.range) (initAt dRow' r c + dRow'.range) (initAt dCol' r c - dCol'.range) (initAt dCol' r c + dCol'.range)
      invalid r1 c1 row' col' score') :
    row' = row ∧ col' = col ∧ score' = score := by
  have hnp : 0 < n := by rw [hn]; positivity
  have cast : ∀ {u v : Int}, u ≤ v → (u : K) ≤ (v : K) := fun h => Int.cast_le.2 h
  have hin : ∀ x y : K, AskedPair dRow dCol n r c x y → AskedPair dRow' dCol' n r c x y := by
    rintro x y ⟨h1, ⟨h2, h3⟩, h4, h5⟩
    exact ⟨h1, ⟨(cast ir.1).trans h2, h3.trans (cast ir.2)⟩, (cast ic.1).trans h4, h5.trans (cast ic.2)⟩
  rcases (best_nested hin hc hc' (fun x y q => ⟨q.1.1, ⟨(hb x y q).1.1.le, (hb x y q).1.2.le⟩, (hb x y q).2.1.le, (hb x y q).2.2.le⟩) b b').2 with
    ⟨i1, i2, i3, i4⟩ | ⟨rfl, rfl, x0, y0, x', y', ex, ey, q1, q2⟩
  · obtain ⟨e1, e2, e3⟩ := p.unusable (.inl i1)
    obtain ⟨e4, e5, e6⟩ := p'.unusable (.inl i3)
    rw [e1, e2, e3, e4, e5, e6, i1, i2, i3, i4]
    exact ⟨rfl, rfl, rfl⟩
  · by_cases hu : r1 = invalid ∨ c1 = invalid
    · obtain ⟨e1, e2, e3⟩ := p.unusable hu
      obtain ⟨e4, e5, e6⟩ := p'.unusable hu
      rw [e1, e2, e3, e4, e5, e6]
      exact ⟨rfl, rfl, rfl⟩
    push Not at hu
    have hx := (hb _ _ q1).1
    have hy := (hb _ _ q2).2
    obtain ⟨m1, -, hm1, -⟩ := q1.1.1
    obtain ⟨-, m2, -, hm2⟩ := q2.1.1
    have hs0 := hs x0 y0 ⟨⟨m1, m2, hm1, hm2⟩, ⟨(cast (by omega)).trans hx.1.le, hx.2.le.trans (cast (by omega))⟩,
      (cast (by omega)).trans hy.1.le, hy.2.le.trans (cast (by omega))⟩
    have notEnd : ∀ {lo hi lo' hi' : Int} {z : K}, lo' ≤ lo → hi ≤ hi' → (lo : K) < z ∧ z < (hi : K) → ¬ AtEnd lo' hi' (.fin z) := by
      rintro lo hi lo' hi' z h1 h2 ⟨h3, h4⟩ (e | e) <;> rw [F.fin.injEq] at e <;> subst e
      · exact absurd (cast h1) (not_le.2 h3)
      · exact absurd (cast h2) (not_le.2 h4)
    have n1 : ¬ (AtEnd (initAt dRow r c - dRow.range) (initAt dRow r c + dRow.range) r1 ∨
        AtEnd (initAt dCol r c - dCol.range) (initAt dCol r c + dCol.range) c1) := by
      rw [ex, ey]
      exact not_or.2 ⟨notEnd le_rfl le_rfl hx, notEnd le_rfl le_rfl hy⟩
    have n2 : ¬ (AtEnd (initAt dRow' r c - dRow'.range) (initAt dRow' r c + dRow'.range) r1 ∨
        AtEnd (initAt dCol' r c - dCol'.range) (initAt dCol' r c + dCol'.range) c1) := by
      rw [ex, ey]
      exact not_or.2 ⟨notEnd ir.1 ir.2 hx, notEnd ic.1 ic.2 hy⟩
    by_cases hnan : seen dRow dCol fr lr fc lc r c cost x0 y0 = .nan
    · obtain ⟨e1, e2, e3⟩ := p.kept x0 y0 ex ey hu.1 hu.2 (.inr hnan)
      obtain ⟨e4, e5, e6⟩ := p'.kept x0 y0 ex ey hu.1 hu.2 (.inr (hs0.trans hnan))
      rw [e1, e2, e3, e4, e5, e6, hs0]
      exact ⟨rfl, rfl, rfl⟩
    · obtain ⟨x1, y1, v1, e1, e2, e3, t1⟩ := p.searched x0 y0 ex ey hu.1 hu.2 n1 hnan
      obtain ⟨x2, y2, v2, e4, e5, e6, t2⟩ := p'.searched x0 y0 ex ey hu.1 hu.2 n2 (by rw [hs0]; exact hnan)
      have hnk : (1 : K) / n = 1 / 2 ^ k := by rw [hn]; push_cast; rfl
      have t3 := path_local t1 (val' := filtered g n (seen dRow' dCol' fr' lr' fc' lc' r c cost')) fun x y h1 h2 => by
        rw [← hnk] at h1 h2
        refine filtered_local fun a ha b hb => hs _ _ ?_
        obtain ⟨⟨z1, w1⟩, w2, w3⟩ := node_inside hnp ⟨m1, hm1⟩ hx h1 ha
        obtain ⟨⟨z2, w4⟩, w5, w6⟩ := node_inside hnp ⟨m2, hm2⟩ hy h2 hb
        exact ⟨⟨z1, z2, w1, w4⟩, ⟨w2, w3⟩, w5, w6⟩
      rw [hs0] at t2
      obtain ⟨rfl, rfl, rfl⟩ := path_unique t2 t3
      rw [e1, e2, e3, e4, e5, e6]
      exact ⟨rfl, rfl, rfl⟩

end

/-- The cost does not depend on the range of the pixel when the disparity is in it. -/
theorem free_window {hw : Nat} {ker : List (F K × F K) → F K} {left : Img K} {moved : K → Img K} {gmin gmax : Arr2 Int} {a b : Nat} {x y : K}
    (h : (gmin.get a b : K) ≤ y ∧ y ≤ (gmax.get a b : K)) :
    Pandora.windowCost hw ker left (moved x) gmin gmax a b y = freeCost hw ker left moved a b x y :=
  cost_wider h ⟨Int.floor_le y, Int.le_ceil y⟩

/-- With the same interval everywhere, all the costs are read. -/
theorem uniform_read {d : Disp} {left : Img K} {H W : Nat} {f l : Int} (hs : left.h = H ∧ left.w = W) (h0 : left.row0 = 0 ∧ left.col0 = 0)
    (hu : UniformDisp d H W) (e : Extent d left f l) {a b : Nat} (ha : a < H) (hb : b < W) (x : K) : ReadDisp d f l a b x := by
  obtain ⟨u, hu1, v, hv1, w1⟩ := e.reached
  obtain ⟨u', hu2, v', hv2, w2⟩ := e.reached'
  rw [h0.1, h0.2, zero_add, zero_add] at w1 w2
  rw [hs.1] at hu1 hu2
  rw [hs.2] at hv1 hv2
  rw [hu u hu1 v hv1 a ha b hb] at w1
  rw [hu u' hu2 v' hv2 a ha b hb] at w2
  unfold ReadDisp
  rw [w1, w2]
  rcases lt_or_ge x (f : K) with h1 | h1
  · exact .inr (.inl h1)
  · rcases lt_or_ge (l : K) x with h2 | h2
    · exact .inr (.inr h2)
    · exact .inl ⟨h1, h2⟩

/-- On whole disparities the cost is the one of the windows displaced by whole pixels. -/
theorem free_whole {hw : Nat} {ker : List (F K × F K) → F K} {left right : Img K} {n : Nat} (hnd : right.noData ≠ .nan) {a b : Nat} {x y : Int} :
    freeCost hw ker left (slabImg zoomLinear right n) a b (x : K) (y : K) = wholeCost hw ker left right a b x y := by
  unfold freeCost
  rw [slab_int, window_whole hnd]
  simp [Int.floor_intCast, Int.ceil_intCast]

/-- Two executions whose users give the same sections for the images, without region of interest, read the same images. -/
theorem Stages.read_images {w : World K} {user user' p p' inp inp' l r : Fields} {out out' : List (Written K)}
    (s : Stages w user p out) (s' : Stages w user' p' out') (f : user.get "ROI" = none) (f' : user'.get "ROI" = none)
    (e : p.get "estimation" = none) (e' : p'.get "estimation" = none)
    (i : user.get "input" = some (.obj inp)) (i' : user'.get "input" = some (.obj inp'))
    (hl : inp.get "left" = some (.obj l)) (hl' : inp'.get "left" = some (.obj l))
    (hr : inp.get "right" = some (.obj r)) (hr' : inp'.get "right" = some (.obj r)) (wf : user.wf) (wf' : user'.wf) :
    s'.right.img = s.right.img ∧ s'.left.img = s.left.img := by
  have hnone : ∀ {u p : Fields} {o : List (Written K)} (t : Stages w u p o), u.get "ROI" = none → t.roi = none := by
    intro u p o t hR
    have r1 := t.roiFor
    cases hx : t.roi with
    | none => rfl
    | some R =>
      rw [hx] at r1
      obtain ⟨v, hv, -⟩ := r1
      rw [hR] at hv; simp at hv
  have n1 := hnone s f
  have n2 := hnone s' f'
  obtain ⟨-, -, lj, rj, l1, l2, l3, l4⟩ := created_input s.datasets
  obtain ⟨-, -, lj', rj', l1', l2', l3', l4'⟩ := created_input s'.datasets
  rw [← s.same_side s' wf wf' e e' i i' hl hl', l1, Option.some.injEq] at l1'
  rw [← s.same_side s' wf wf' e e' i i' hr hr', l2, Option.some.injEq] at l2'
  subst l1' l2'
  rw [n1] at l3 l4
  rw [n2, l3, Except.ok.injEq] at l3'
  rw [n2, l4, Except.ok.injEq] at l4'
  exact ⟨l4'.symm, l3'.symm⟩

/-- C140 (part that holds): larger intervals change nothing, with a dichotomy, at the pixels whose best pairs are inside the smaller ones. Two
successful executions on the same full images, without estimation, with the same subpixel factor, window cost, invalid value, iterations and kernel;
in each of them all the pixels have the same intervals, those of the first being in those of the second. At each pixel where all the best pairs of the
larger intervals are in the smaller intervals and not at their ends, the refined disparities and the score are the same. Missing: intervals which
change with the pixel (`C140_false`). -/
theorem C140_wider_dichotomy_partial (w : World K) (user user' p p' mc mc' inp inp' l r f f' : Fields) (out out' : List (Written K))
    (H W : Nat) (dRow dCol dRow' dCol' : Disp) (invalid : F K) (n hw : Nat) (me : Measure) (ker : List (F K × F K) → F K) (it : Nat) (g : Kernel K)
    (wf : user.wf) (wf' : user'.wf)
    (hdisk : DiskContract w H W) (hpan : PandoraContract w) (hkeeps : PandoraKeeps w.pandora) (hzoom : w.run.zoom = zoomLinear)
    (cfg : Dichotomised w user p mc inp l r f H W dRow dCol invalid n hw me ker it g)
    (cfg' : Dichotomised w user' p' mc' inp' l r f' H W dRow' dCol' invalid n hw me ker it g) (hHW : 2 ≤ H ∧ 2 ≤ W)
    (hr : Nested dRow dRow' H W) (hc : Nested dCol dCol' H W)
    (hu : UniformDisp dRow H W ∧ UniformDisp dCol H W) (hu' : UniformDisp dRow' H W ∧ UniformDisp dCol' H W)
    (h : Main.main w user = (out, none)) (h' : Main.main w user' = (out', none)) :
    ∃ files rest files' rest' left right, ∃ moved : K → Img K, out = .rasters files :: rest ∧ out' = .rasters files' :: rest' ∧
      ImagesRead w l r none left right ∧ (∀ x : K, (∃ a : Int, x * (n : K) = (a : K)) → Displaced (moved x) right x) ∧
      (right.noData ≠ .nan → ∀ a b, ∀ x y : Int, freeCost hw ker left moved a b x y = wholeCost hw ker left right a b x y) ∧
      (∀ f ∈ [files.row, files.col, files.score], f.h = H ∧ f.w = W) ∧ (∀ f ∈ [files'.row, files'.col, files'.score], f.h = H ∧ f.w = W) ∧
      ∀ a < H, ∀ b < W,
        (∀ x y, IsBestPair me dRow' dCol' n a b (freeCost hw ker left moved a b) x y → NotAtEnds dRow dCol a b x y) →
        files'.row.values a b = files.row.values a b ∧ files'.col.values a b = files.col.values a b ∧
          files'.score.values a b = files.score.values a b := by
  obtain ⟨s⟩ := dichotomised_stages cfg wf hpan h
  obtain ⟨s'⟩ := dichotomised_stages cfg' wf' hpan h'
  obtain ⟨k, fr, lr, fc, lc, gmin, gmax, hk, im, ⟨sl, sr⟩, o, ⟨x1, x2⟩, hg, z, key⟩ := s.dichotomised cfg wf hdisk hkeeps hzoom hHW
  obtain ⟨k', fr', lr', fc', lc', gmin', gmax', hk', im', ⟨sl', sr'⟩, o', ⟨x1', x2'⟩, hg', z', key'⟩ :=
    s'.dichotomised cfg' wf' hdisk hkeeps hzoom hHW
  obtain rfl : k' = k := Nat.pow_right_injective (le_refl 2) (hk'.symm.trans hk)
  have hn : 0 < n := by rw [hk]; positivity
  obtain ⟨er, el⟩ := s.read_images s' cfg.full cfg'.full cfg.noEstimation cfg'.noEstimation cfg.input cfg'.input cfg.left cfg'.left
    cfg.right cfg'.right wf wf'
  refine ⟨s.files, _, s'.files, _, s.left.img, s.right.img, slabImg zoomLinear s.right.img n, s.outIs, s'.outIs, im,
    fun x hx => slab_displaced _ _ hn _ hx, fun hnd a b x y => free_whole hnd, z, z', fun a ha b hb hbest => ?_⟩
  obtain ⟨r0, c0, s0, cost, e1, b1, p1⟩ := key a ha b hb
  obtain ⟨r1, c1, s1, cost', e2, b2, p2⟩ := key' a ha b hb
  obtain ⟨g1, g2⟩ := hg a ha b hb
  obtain ⟨g1', g2'⟩ := hg' a ha b hb
  have ir := hr a b (by omega) (by omega) (by omega) (by omega)
  have ic := hc a b (by omega) (by omega) (by omega) (by omega)
  have cast : ∀ {u v : Int}, u ≤ v → (u : K) ≤ (v : K) := fun h => Int.cast_le.2 h
  have f1 : ∀ x y : K, ((initAt dCol a b - dCol.range - g.before : Int) : K) ≤ y →
      y ≤ ((initAt dCol a b + dCol.range + (g.size - 1 - g.before : Nat) : Int) : K) →
      cost x y = freeCost hw ker s.left.img (slabImg zoomLinear s.right.img n) a b x y := by
    intro x y h1 h2
    rw [e1]
    exact free_window (by rw [g1, g2]; exact ⟨h1, h2⟩)
  have f2 : ∀ x y : K, ((initAt dCol' a b - dCol'.range - g.before : Int) : K) ≤ y →
      y ≤ ((initAt dCol' a b + dCol'.range + (g.size - 1 - g.before : Nat) : Int) : K) →
      cost' x y = freeCost hw ker s.left.img (slabImg zoomLinear s.right.img n) a b x y := by
    intro x y h1 h2
    rw [e2, el, er]
    exact free_window (by rw [g1', g2']; exact ⟨h1, h2⟩)
  refine searched_nested (free := freeCost hw ker s.left.img (slabImg zoomLinear s.right.img n) a b) hk ir ic ?_ ?_ ?_ hbest b1 p1 b2 p2
  · rintro x y ⟨-, -, h1, h2⟩
    exact f1 x y ((cast (by omega)).trans h1) (h2.trans (cast (by omega)))
  · rintro x y ⟨-, -, h1, h2⟩
    exact f2 x y ((cast (by omega)).trans h1) (h2.trans (cast (by omega)))
  · rintro x y ⟨-, -, h1, h2⟩
    unfold seen
    rw [if_pos ⟨uniform_read sl' o' hu'.1 x1' ha hb x, uniform_read sl' o' hu'.2 x2' ha hb y⟩,
      if_pos ⟨uniform_read sl o hu.1 x1 ha hb x, uniform_read sl o hu.2 x2 ha hb y⟩, f1 x y h1 h2,
      f2 x y ((cast (by omega)).trans h1) (h2.trans (cast (by omega)))]

/-! ## Example and disagreement -/

/-- Row disparities around `v` and column disparities around `v'`, on the full images, with a dichotomy. -/
def exUserInterval (v v' : J) (k : Int) : Fields := dict [("input", .obj (dict [("left", .obj exL), ("right", .obj exR),
  ("row_disparity", .obj (dict [("init", v), ("range", .int k)])), ("col_disparity", .obj (dict [("init", v'), ("range", .int 1)]))])),
  ("pipeline", .obj (exPipeline none 1 1 (some (exDichoOf 1))))]

/-- Row disparities around zero, but at two pixels. -/
def exGridRow : Arr2 Int := ⟨6, 6, fun x y => if x = 0 ∧ y = 0 then -2 else if x = 0 ∧ y = 1 then 2 else 0⟩

/-- The grids of the disk. -/
def exGrids (s : String) : Arr2 Int := if s = "row.tif" then exGridRow else ⟨6, 6, fun _ _ => 0⟩

def exEnvRow : Env :=
  ⟨false, fun v => isStr v || decide (v = .null), isStr, fun s => .ok ⟨1, 6, 6, some (if s = "row.tif" then 2 else 0)⟩, fun _ => none, fun _ => .ok (6, 6)⟩

/-- Windows of three pixels compared by `sad`, with the grids `exGrids`. -/
noncomputable def exWorldRow (l r : Img ℚ) : World ℚ :=
  { exWorldImgs l r with
    env := exEnvRow
    files := { (exWorldImgs l r).files with grid := exGrids } }

theorem exWorldRow_contract {l r : Img ℚ} (hl : exSized l) (hr : exSized r) : RunContract (exWorldRow l r) 6 6 := by
  obtain ⟨⟨d1, -, -, d4, d5⟩, ⟨p1, p2⟩, k, f, a, o, i, s⟩ := exWorldImgs_contract hl hr
  refine ⟨⟨d1, ?_, ?_, d4, d5⟩, ⟨p1, p2⟩, k, f, fun _ _ _ _ => rfl, o, i, s⟩
  · intro s g h
    simp only [exWorldRow, exEnvRow, Except.ok.injEq] at h
    subst h
    simp only [exWorldRow, exGrids, exGridRow]
    split_ifs <;> exact ⟨rfl, rfl⟩
  · intro v s h
    simp only [exWorldRow, exEnvRow, Except.ok.injEq] at h
    exact h.symm

theorem exUserInterval_wf {v v' : J} (h : v.wf) (h' : v'.wf) (k : Int) : (exUserInterval v v' k).wf := by
  simp [exUserInterval, exL, exR, exPipeline, exDichoOf, dict, Fields.append, Fields.wf, J.wf, Fields.keys, h, h']

theorem exRow_dicho (l r : Img ℚ) {v v' : J} {i i' : Init} (k : Int)
    (hi : (∃ n, IsInt true v n ∧ i = .const n) ∨ ∃ s, v = .str s ∧ i = .grid (exGrids s))
    (hi' : (∃ n, IsInt true v' n ∧ i' = .const n) ∨ ∃ s, v' = .str s ∧ i' = .grid (exGrids s)) :
    ∃ p mc inp f, Dichotomised (exWorldRow l r) (exUserInterval v v' k) p mc inp exL exR f 6 6 ⟨i, k⟩ ⟨i', 1⟩ .nan 1 1 .min sad 1 keysKernel :=
  ⟨_, _, _, _, rfl, rfl, rfl, rfl, rfl, rfl, rfl, rfl, ⟨_, 1, rfl, .inl rfl, by omega⟩, ⟨_, rfl, .inl ⟨rfl, rfl⟩⟩, rfl,
    ⟨_, _, _, _, _, .int 1, rfl, rfl, rfl, .inl rfl, rfl, rfl⟩, 1, 1,
    ⟨⟨_, rfl, ⟨_, _, _, rfl, rfl, rfl, .inl rfl, hi⟩, ⟨_, _, _, rfl, rfl, rfl, .inl rfl, hi'⟩⟩,
    .inr ⟨rfl, rfl, rfl, rfl, rfl⟩,
    ⟨_, _, _, rfl, rfl, rfl, .inl ⟨_, _, rfl, .inl rfl, .inl rfl⟩, .inl ⟨_, rfl, .inr (.inr (.inl ⟨rfl, rfl⟩))⟩⟩⟩⟩

theorem exRow_runs {l r : Img ℚ} (hl : exSized l) (hr : exSized r) {v v' : J} (hv : v.wf) (hv' : v'.wf) (k : Int)
    (hacc : accepted { exWorldSixF with env := exEnvRow } (exUserInterval v v' k) = true) :
    Main.main (exWorldRow l r) (exUserInterval v v' k) = ((Main.main (exWorldRow l r) (exUserInterval v v' k)).1, none) := by
  have : (Main.main (exWorldRow l r) (exUserInterval v v' k)).2 = none := by
    obtain ⟨m, cfg, h⟩ := accepted_ok hacc
    refine C81_accepted_runs_partial (exWorldRow l r) _ _ _ cfg m 6 6 0 5 0 5 1 1 (exUserInterval_wf hv hv' k) (exWorldRow_contract hl hr) rfl
      (by simp [exPipeline, exDichoOf, dict, Fields.append, Fields.keys])
      rfl (.inl ⟨_, _, rfl, .inl rfl, .inl rfl⟩) (.inr ⟨rfl, rfl, rfl, rfl, rfl⟩) (by omega) ?_ ?_ (.inl ⟨rfl, rfl⟩) h
    · intro he
      exact absurd rfl he
    · intro v hv
      have : v = exDichoOf 1 := (Option.some.inj hv).symm
      subst this
      exact ⟨_, rfl, .inr (.inl ⟨rfl, rfl, rfl⟩)⟩
  exact Prod.ext rfl this

/-- The right image: the window of the pixel of row 3 and column 2 holds zeros, and the values around it are positive. -/
def exRing (x y : Nat) : F ℚ := if x = 0 then .fin 100 else if x = 1 ∨ x = 5 ∨ y = 0 ∨ 4 ≤ y then .fin 1 else .fin 0

def exZeros : Img ℚ := exImgSix fun _ _ => .fin 0

/-- The costs of the windows inside the images. -/
theorem exRing_cost {u v : Int} (hu : -2 ≤ u ∧ u ≤ 1) (hv : -1 ≤ v ∧ v ≤ 2) :
    wholeCost 1 sad exZeros (exImgSix exRing) 3 2 u v = sad (wholePairs 1 exZeros (exImgSix exRing) 3 2 u v) := by
  unfold wholeCost
  rw [if_pos]
  refine ⟨?_, fun _ _ _ _ _ _ => rfl, rfl, fun x y _ _ _ _ => ?_⟩
  · simp only [BothInside, exImgSix, exZeros]
    omega
  · simp only [exImgSix, exLeftImg, exRing]
    split_ifs <;> simp only [ne_eq, F.fin.injEq] <;> norm_num

/-- The costs of the eight pairs around the pixel are positive. -/
theorem exRing_positive {u v : Int} (hv : -1 ≤ v ∧ v ≤ 1) (hne : wholeCost 1 sad exZeros (exImgSix exRing) 3 2 u v ≠ .nan) :
    (u = 0 ∧ v = 0) ∨ ∃ q > 0, wholeCost 1 sad exZeros (exImgSix exRing) 3 2 u v = .fin q := by
  have hu : -2 ≤ u ∧ u ≤ 1 := by
    by_contra hc
    refine hne (if_neg ?_)
    rintro ⟨hin, -⟩
    have hin := hin.2
    simp only [exImgSix] at hin
    push_cast at hin
    omega
  rw [exRing_cost hu ⟨hv.1, by omega⟩]
  obtain rfl | rfl | rfl | rfl : u = -2 ∨ u = -1 ∨ u = 0 ∨ u = 1 := by omega
  all_goals obtain rfl | rfl | rfl : v = -1 ∨ v = 0 ∨ v = 1 := by omega
  · exact .inr ⟨304, by norm_num, by decide +kernel⟩
  · exact .inr ⟨303, by norm_num, by decide +kernel⟩
  · exact .inr ⟨304, by norm_num, by decide +kernel⟩
  · exact .inr ⟨5, by norm_num, by decide +kernel⟩
  · exact .inr ⟨3, by norm_num, by decide +kernel⟩
  · exact .inr ⟨5, by norm_num, by decide +kernel⟩
  · exact .inr ⟨3, by norm_num, by decide +kernel⟩
  · exact .inl ⟨rfl, rfl⟩
  · exact .inr ⟨3, by norm_num, by decide +kernel⟩
  · exact .inr ⟨5, by norm_num, by decide +kernel⟩
  · exact .inr ⟨3, by norm_num, by decide +kernel⟩
  · exact .inr ⟨5, by norm_num, by decide +kernel⟩

theorem exRing_zero : wholeCost 1 sad exZeros (exImgSix exRing) 3 2 0 0 = .fin 0 := by
  rw [exRing_cost (by decide) (by decide)]
  decide +kernel

theorem asked_whole {d : Disp} {ic : Init} (hi : initAt ⟨ic, 1⟩ ((3 : Nat) : Int) ((2 : Nat) : Int) = 0) {x y : ℚ}
    (h : AskedPair d ⟨ic, 1⟩ 1 ((3 : Nat) : Int) ((2 : Nat) : Int) x y) :
    ∃ u v : Int, x = u ∧ y = v ∧ -1 ≤ v ∧ v ≤ 1 := by
  obtain ⟨⟨u, v, hx, hy⟩, -, h3, h4⟩ := h
  rw [Nat.cast_one, mul_one] at hx hy
  subst hx hy
  rw [hi] at h3 h4
  simp only [Int.cast_le] at h3 h4
  exact ⟨u, v, rfl, rfl, by omega, by omega⟩

/-- The disparities of the pixel of row 3 and column 2 before the refinement. -/
theorem exRing_best {d : Disp} {ic : Init} (hi : initAt d ((3 : Nat) : Int) ((2 : Nat) : Int) = 0)
    (hi' : initAt ⟨ic, 1⟩ ((3 : Nat) : Int) ((2 : Nat) : Int) = 0) (hr : 0 ≤ d.range) {cost : ℚ → ℚ → F ℚ}
    (hc : ∀ u v : Int, AskedPair d ⟨ic, 1⟩ 1 ((3 : Nat) : Int) ((2 : Nat) : Int) (u : ℚ) (v : ℚ) →
      cost u v = wholeCost 1 sad exZeros (exImgSix exRing) 3 2 u v)
    {r0 c0 s0 : F ℚ} (b : BestPair .min (AskedPair d ⟨ic, 1⟩ 1 ((3 : Nat) : Int) ((2 : Nat) : Int)) cost .nan r0 c0 s0) :
    r0 = .fin 0 ∧ c0 = .fin 0 := by
  have ask : AskedPair d ⟨ic, 1⟩ 1 ((3 : Nat) : Int) ((2 : Nat) : Int) ((0 : Int) : ℚ) ((0 : Int) : ℚ) := by
    refine ⟨⟨0, 0, by simp, by simp⟩, ?_⟩
    rw [hi, hi']
    simp only [Int.cast_le]
    omega
  have h0 : cost 0 0 = .fin 0 := by
    have := hc 0 0 ask
    rw [exRing_zero] at this
    exact_mod_cast this
  have ask : AskedPair d ⟨ic, 1⟩ 1 ((3 : Nat) : Int) ((2 : Nat) : Int) (0 : ℚ) (0 : ℚ) := by exact_mod_cast ask
  have pos : ∀ x y : ℚ, AskedPair d ⟨ic, 1⟩ 1 ((3 : Nat) : Int) ((2 : Nat) : Int) x y → cost x y ≠ .nan →
      (x = 0 ∧ y = 0) ∨ ∃ q > 0, cost x y = .fin q := by
    intro x y q hne
    obtain ⟨u, v, rfl, rfl, hv⟩ := asked_whole hi' q
    rw [hc u v q] at hne ⊢
    rcases exRing_positive hv hne with ⟨rfl, rfl⟩ | h
    · exact .inl ⟨by simp, by simp⟩
    · exact .inr h
  have key : BestPair .min (AskedPair d ⟨ic, 1⟩ 1 ((3 : Nat) : Int) ((2 : Nat) : Int)) cost .nan (.fin 0) (.fin 0) (.fin 0) := by
    refine ⟨fun h => ?_, fun _ => ⟨⟨by simp, 0, 0, ask, h0⟩, ?_⟩, fun _ => ⟨0, 0, rfl, rfl, ⟨0, ask, h0⟩, ⟨0, ask, h0⟩, ?_⟩⟩
    · have := h 0 0 ask
      rw [h0] at this
      simp at this
    · rintro x ⟨hx, dr, dc, q, rfl⟩
      rcases pos dr dc q hx with ⟨rfl, rfl⟩ | ⟨q, hq, e⟩
      · rw [h0]; simp [AtLeastAsGood, F.le]
      · rw [e]; simp [AtLeastAsGood, F.le, hq.le]
    · intro dr dc q e
      rcases pos dr dc q (by rw [e]; simp) with ⟨rfl, rfl⟩ | ⟨q, hq, e'⟩
      · exact ⟨le_refl _, le_refl _⟩
      · rw [e, F.fin.injEq] at e'
        exact absurd e' hq.ne
  obtain ⟨e1, e2, -⟩ := BestPair.unique b key
  exact ⟨e1, e2⟩

/-- One iteration from the pair `(0, 0)`. -/
theorem one_move {me : Measure} {val : ℚ → ℚ → F ℚ} {v v' : F ℚ} {x y : ℚ} (p : Path me val 1 0 0 0 v x y v') :
    ∃ s, BestMove me val (1 / 2) 0 0 v s ∧ v' = tried val (1 / 2) 0 0 v s := by
  cases p with
  | stop h => omega
  | move h hs hp =>
    rw [zero_add, pow_one] at hs hp
    cases hp with
    | stop _ => exact ⟨_, hs, rfl⟩
    | move h' => omega

section
variable {i ic : Init} {k : Int} {p mc inp f : Fields} {user : Fields} {out : List (Written ℚ)}

/-- The pixel of row 3 and column 2 of an execution. -/
theorem exRing_pixel (hk : 0 < k) (hi : initAt ⟨i, k⟩ ((3 : Nat) : Int) ((2 : Nat) : Int) = 0) (hall : ∀ r c, initAt ⟨ic, 1⟩ r c = 0)
    (cfg : Dichotomised (exWorldRow exZeros (exImgSix exRing)) user p mc inp exL exR f 6 6 ⟨i, k⟩ ⟨ic, 1⟩ .nan 1 1 .min sad 1 keysKernel)
    (wf : user.wf) (h : Main.main (exWorldRow exZeros (exImgSix exRing)) user = (out, none)) :
    ∃ files rest fr lr, ∃ cost : ℚ → ℚ → F ℚ, out = .rasters files :: rest ∧ Extent ⟨i, k⟩ exZeros fr lr ∧
      (∀ x y : Int, -2 ≤ y ∧ y ≤ 3 → cost x y = wholeCost 1 sad exZeros (exImgSix exRing) 3 2 x y) ∧
      ∃ s, BestMove .min (filtered keysKernel 1 (seen ⟨i, k⟩ ⟨ic, 1⟩ fr lr (-1) 1 ((3 : Nat) : Int) ((2 : Nat) : Int) cost)) (1 / 2) 0 0 (.fin 0) s ∧
        files.score.values 3 2 =
          tried (filtered keysKernel 1 (seen ⟨i, k⟩ ⟨ic, 1⟩ fr lr (-1) 1 ((3 : Nat) : Int) ((2 : Nat) : Int) cost)) (1 / 2) 0 0 (.fin 0) s := by
  have ct := exWorldRow_contract (l := exZeros) (r := exImgSix exRing) ⟨⟨rfl, rfl⟩, rfl, rfl⟩ ⟨⟨rfl, rfl⟩, rfl, rfl⟩
  obtain ⟨s⟩ := dichotomised_stages cfg wf ct.pandora h
  obtain ⟨k', fr, lr, fc, lc, gmin, gmax, hk', im, -, o, ⟨x1, x2⟩, hg, z, key⟩ := s.dichotomised cfg wf ct.disk ct.keeps rfl (by decide)
  obtain rfl : k' = 0 := by
    rcases k' with _ | k'
    · rfl
    · rw [pow_succ] at hk'; omega
  obtain ⟨el, er⟩ : s.left.img = exZeros ∧ s.right.img = exImgSix exRing := exWorldImgs_images im
  obtain ⟨r0, c0, s0, cost, e1, b1, p1⟩ := key 3 (by decide) 2 (by decide)
  rw [el] at x1 x2
  obtain ⟨_, _, _, _, w1⟩ := x2.reached
  obtain ⟨_, _, _, _, w2⟩ := x2.reached'
  have hi' := hall ((3 : Nat) : Int) ((2 : Nat) : Int)
  rw [hall] at w1 w2
  obtain rfl : fc = -1 := w1.symm
  obtain rfl : lc = 1 := w2.symm
  obtain ⟨g1, g2⟩ := hg 3 (by decide) 2 (by decide)
  rw [hi'] at g1 g2
  have g1 : gmin.get 3 2 = -2 := g1
  have g2 : gmax.get 3 2 = 3 := g2
  have hc : ∀ x y : Int, -2 ≤ y ∧ y ≤ 3 → cost x y = wholeCost 1 sad exZeros (exImgSix exRing) 3 2 x y := by
    intro x y hy
    rw [e1, el, er, slab_int, window_whole (by simp [exImgSix, exLeftImg]) (by rw [g1, g2]; exact hy)]
  obtain ⟨rfl, rfl⟩ := exRing_best hi hi' hk.le (fun u v q => hc u v (by
    obtain ⟨-, v', -, e, q1, q2⟩ := asked_whole hi' q
    rw [Int.cast_inj] at e
    omega)) b1
  have h0 : seen ⟨i, k⟩ ⟨ic, 1⟩ fr lr (-1) 1 ((3 : Nat) : Int) ((2 : Nat) : Int) cost 0 0 = .fin 0 := by
    have := hc 0 0 (by decide)
    rw [exRing_zero] at this
    unfold seen
    rw [if_pos]
    · exact_mod_cast this
    · constructor
      · left
        rw [hi]
        push_cast
        have : (0 : ℚ) < k := by exact_mod_cast hk
        constructor <;> linarith
      · left
        rw [hi']
        simp
  obtain ⟨x, y, v, -, -, e, t⟩ := p1.searched 0 0 rfl rfl (by simp) (by simp) (by
    rintro (q | q)
    · rw [hi] at q
      simp only [AtEnd, F.fin.injEq] at q
      have : (0 : ℚ) < k := by exact_mod_cast hk
      push_cast at q
      rcases q with q | q <;> linarith
    · rw [hi'] at q
      simp [AtEnd] at q) (by rw [h0]; simp)
  rw [h0] at t
  obtain ⟨m, m1, m2⟩ := one_move t
  exact ⟨s.files, _, fr, lr, cost, s.outIs, x1, hc, m, m1, e.trans m2⟩

end

/-- With the grid, the samples of the filter are in the intervals of other pixels: the pair is kept. -/
theorem exRing_grid {ic : Init} (hall : ∀ r c, initAt ⟨ic, 1⟩ r c = 0) {p mc inp f : Fields} {user : Fields} {out : List (Written ℚ)}
    (cfg : Dichotomised (exWorldRow exZeros (exImgSix exRing)) user p mc inp exL exR f 6 6 ⟨.grid (exGrids "row.tif"), 1⟩ ⟨ic, 1⟩ .nan 1 1 .min sad 1
      keysKernel)
    (wf : user.wf) (h : Main.main (exWorldRow exZeros (exImgSix exRing)) user = (out, none)) :
    ∃ files rest, out = .rasters files :: rest ∧ files.score.values 3 2 = .fin 0 := by
  obtain ⟨files, rest, fr, lr, cost, o, e, hc, s, b, hs⟩ := exRing_pixel (by decide) (by decide) hall cfg wf h
  refine ⟨files, rest, o, ?_⟩
  rw [hs]
  have h1 := (e.inside 0 (by decide) 0 (by decide)).1
  have h2 := (e.inside 0 (by decide) 1 (by decide)).2
  have h1 : fr ≤ -3 := h1
  have h2 : 3 ≤ lr := h2
  have blind : ∀ (u : Int) (y : ℚ), u = -2 ∨ u = 2 →
      seen ⟨.grid (exGrids "row.tif"), 1⟩ ⟨ic, 1⟩ fr lr (-1) 1 ((3 : Nat) : Int) ((2 : Nat) : Int) cost (u : ℚ) y = .nan := by
    intro u y hu
    unfold seen
    rw [if_neg]
    rintro ⟨q, -⟩
    have hi : initAt ⟨.grid (exGrids "row.tif"), 1⟩ ((3 : Nat) : Int) ((2 : Nat) : Int) = 0 := by decide
    unfold ReadDisp at q
    rw [hi] at q
    simp only [Int.cast_le, Int.cast_lt] at q
    omega
  by_cases hz : s = (0, 0)
  · rw [tried, if_pos hz]
  · refine absurd ?_ b.number
    obtain ⟨s1, s2⟩ := s
    rw [tried, if_neg hz]
    have ha := b.around.1
    unfold filtered
    rw [if_pos]
    obtain rfl | rfl | rfl : s1 = -1 ∨ s1 = 0 ∨ s1 = 1 := by omega
    · refine ⟨0, by decide, 0, by decide, ?_⟩
      have : node keysKernel 1 (0 + ((-1 : Int) : ℚ) * (1 / 2)) 0 = ((-2 : Int) : ℚ) := by decide +kernel
      rw [this]
      exact blind _ _ (.inl rfl)
    · refine ⟨3, by decide, 0, by decide, ?_⟩
      have : node keysKernel 1 (0 + ((0 : Int) : ℚ) * (1 / 2)) 3 = ((2 : Int) : ℚ) := by decide +kernel
      rw [this]
      exact blind _ _ (.inr rfl)
    · refine ⟨3, by decide, 0, by decide, ?_⟩
      have : node keysKernel 1 (0 + ((1 : Int) : ℚ) * (1 / 2)) 3 = ((2 : Int) : ℚ) := by decide +kernel
      rw [this]
      exact blind _ _ (.inr rfl)

/-- With the same interval everywhere, the value interpolated half a row up is better. -/
theorem exRing_const {ic : Init} (hall : ∀ r c, initAt ⟨ic, 1⟩ r c = 0) {p mc inp f : Fields} {user : Fields} {out : List (Written ℚ)}
    (cfg : Dichotomised (exWorldRow exZeros (exImgSix exRing)) user p mc inp exL exR f 6 6 ⟨.const 0, 3⟩ ⟨ic, 1⟩ .nan 1 1 .min sad 1 keysKernel)
    (wf : user.wf) (h : Main.main (exWorldRow exZeros (exImgSix exRing)) user = (out, none)) :
    ∃ files rest, out = .rasters files :: rest ∧ files.score.values 3 2 ≠ .fin 0 := by
  obtain ⟨files, rest, fr, lr, cost, o, e, hc, s, b, hs⟩ := exRing_pixel (by decide) (by decide) hall cfg wf h
  refine ⟨files, rest, o, ?_⟩
  rw [hs]
  intro hz
  have sc : ∀ a < 4, ∀ b < 4, seen ⟨.const 0, 3⟩ ⟨ic, 1⟩ fr lr (-1) 1 ((3 : Nat) : Int) ((2 : Nat) : Int) cost (node keysKernel 1 (-1 / 2) a)
      (node keysKernel 1 0 b) = sad (wholePairs 1 exZeros (exImgSix exRing) 3 2 ((a : Int) - 2) ((b : Int) - 1)) := by
    intro a ha b hb
    have n1 : node keysKernel 1 (-1 / 2 : ℚ) a = (((a : Int) - 2 : Int) : ℚ) := by
      have : ⌊(-1 / 2 : ℚ) * ((1 : Nat) : ℚ)⌋ = -1 := by decide +kernel
      unfold node
      rw [this]
      simp only [keysKernel]
      push_cast
      ring
    have n2 : node keysKernel 1 (0 : ℚ) b = (((b : Int) - 1 : Int) : ℚ) := by
      simp only [node, keysKernel]
      push_cast
      simp
      ring
    rw [n1, n2, seen, if_pos, hc _ _ (by omega), exRing_cost (by omega) (by omega)]
    constructor
    · left
      simp only [initAt, Int.cast_le]
      omega
    · rcases Nat.lt_or_ge b 3 with q | q
      · left
        rw [hall]
        simp only [Int.cast_le]
        omega
      · right; right
        rw [Int.cast_lt]
        omega
  have hval : filtered keysKernel 1 (seen ⟨.const 0, 3⟩ ⟨ic, 1⟩ fr lr (-1) 1 ((3 : Nat) : Int) ((2 : Nat) : Int) cost) (-1 / 2) 0 =
      .fin (-279 / 16) := by
    unfold filtered
    rw [if_neg]
    · rw [F.fin.injEq]
      have : ∀ a ∈ Finset.range 4, ∀ b ∈ Finset.range 4,
          amount (seen ⟨.const 0, 3⟩ ⟨ic, 1⟩ fr lr (-1) 1 ((3 : Nat) : Int) ((2 : Nat) : Int) cost (node keysKernel 1 (-1 / 2) a)
            (node keysKernel 1 0 b)) = amount (sad (wholePairs 1 exZeros (exImgSix exRing) 3 2 ((a : Int) - 2) ((b : Int) - 1))) := by
        intro a ha b hb
        rw [sc a (Finset.mem_range.1 ha) b (Finset.mem_range.1 hb)]
      rw [Finset.sum_congr rfl fun a ha => Finset.sum_congr rfl fun b hb => by rw [this a ha b hb]]
      decide +kernel
    · rintro ⟨a, ha, b, hb, q⟩
      rw [sc a ha b hb] at q
      have ha : a < 4 := ha
      have hb : b < 4 := hb
      revert q
      obtain rfl | rfl | rfl | rfl : a = 0 ∨ a = 1 ∨ a = 2 ∨ a = 3 := by omega
      all_goals obtain rfl | rfl | rfl | rfl : b = 0 ∨ b = 1 ∨ b = 2 ∨ b = 3 := by omega
      all_goals decide +kernel
  have ht : tried (filtered keysKernel 1 (seen ⟨.const 0, 3⟩ ⟨ic, 1⟩ fr lr (-1) 1 ((3 : Nat) : Int) ((2 : Nat) : Int) cost)) (1 / 2) 0 0 (.fin 0)
      (-1, 0) = .fin (-279 / 16) := by
    rw [tried, if_neg (by decide), ← hval]
    congr 1 <;> norm_num
  have := b.best (-1, 0) ⟨by decide, by decide⟩ (by rw [ht]; simp)
  rw [hz, ht] at this
  simp [AtLeastAsGood, F.le] at this
  norm_num at this

/-- C140, the full statement, with intervals which may change with the pixel. -/
def C140Statement : Prop := ∀ (w : World ℚ) (user user' p p' mc mc' inp inp' l r f f' : Fields) (out out' : List (Written ℚ))
    (H W : Nat) (dRow dCol dRow' dCol' : Disp) (invalid : F ℚ) (n hw : Nat) (me : Measure) (ker : List (F ℚ × F ℚ) → F ℚ) (it : Nat) (g : Kernel ℚ),
    user.wf → user'.wf → DiskContract w H W → PandoraContract w → PandoraKeeps w.pandora → w.run.zoom = zoomLinear →
    Dichotomised w user p mc inp l r f H W dRow dCol invalid n hw me ker it g →
    Dichotomised w user' p' mc' inp' l r f' H W dRow' dCol' invalid n hw me ker it g → (2 ≤ H ∧ 2 ≤ W) →
    Nested dRow dRow' H W → Nested dCol dCol' H W →
    Main.main w user = (out, none) → Main.main w user' = (out', none) →
    ∃ files rest files' rest' left right, ∃ moved : ℚ → Img ℚ, out = .rasters files :: rest ∧ out' = .rasters files' :: rest' ∧
      ImagesRead w l r none left right ∧ (∀ x : ℚ, (∃ a : Int, x * (n : ℚ) = (a : ℚ)) → Displaced (moved x) right x) ∧
      (right.noData ≠ .nan → ∀ a b, ∀ x y : Int, freeCost hw ker left moved a b x y = wholeCost hw ker left right a b x y) ∧
      ∀ a < H, ∀ b < W,
        (∀ x y, IsBestPair me dRow' dCol' n a b (freeCost hw ker left moved a b) x y → NotAtEnds dRow dCol a b x y) →
        files'.score.values a b = files.score.values a b

/-- The pair `(0, 0)` is the best one. -/
theorem exRing_inside {moved : ℚ → Img ℚ}
    (hf : ∀ x y : Int, freeCost 1 sad exZeros moved 3 2 x y = wholeCost 1 sad exZeros (exImgSix exRing) 3 2 x y) {d : Disp} {ic : Init}
    (hi' : initAt ⟨ic, 1⟩ ((3 : Nat) : Int) ((2 : Nat) : Int) = 0) (hi : initAt d ((3 : Nat) : Int) ((2 : Nat) : Int) = 0) (hr : 0 < d.range) (x y : ℚ)
    (h : IsBestPair .min ⟨.const 0, 3⟩ ⟨.const 0, 1⟩ 1 ((3 : Nat) : Int) ((2 : Nat) : Int) (freeCost 1 sad exZeros moved 3 2) x y) :
    NotAtEnds d ⟨ic, 1⟩ ((3 : Nat) : Int) ((2 : Nat) : Int) x y := by
  obtain ⟨h1, h2, h3⟩ := h
  obtain ⟨u, v, rfl, rfl, hv⟩ := asked_whole rfl h1
  rw [hf] at h2
  have h0 : freeCost 1 sad exZeros moved 3 2 ((0 : Int) : ℚ) ((0 : Int) : ℚ) = .fin 0 := by rw [hf, exRing_zero]
  rcases exRing_positive hv h2 with ⟨rfl, rfl⟩ | ⟨q, hq, e⟩
  · unfold NotAtEnds
    rw [hi, hi']
    simp only [Int.cast_lt]
    omega
  · have := h3 ((0 : Int) : ℚ) ((0 : Int) : ℚ) ⟨⟨0, 0, by simp, by simp⟩, by simp [initAt], by simp [initAt]⟩ (by rw [h0]; simp)
    rw [h0, hf, e] at this
    simp [AtLeastAsGood, F.le] at this
    linarith

/-- The full statement is false: with intervals which change with the pixel, the disparities which are in the intervals of other pixels only have no
cost, so that the samples of the filter are missing at a pixel whose best pair is inside its own intervals. -/
theorem C140_false : ¬ C140Statement := by
  intro hst
  have s1 : exSized exZeros := ⟨⟨rfl, rfl⟩, rfl, rfl⟩
  have s2 : exSized (exImgSix exRing) := ⟨⟨rfl, rfl⟩, rfl, rfl⟩
  obtain ⟨_, _, _, _, cfg⟩ := exRow_dicho exZeros (exImgSix exRing) (v := .str "row.tif") (v' := .str "col.tif") 1 (.inr ⟨_, rfl, rfl⟩) (.inr ⟨_, rfl, rfl⟩)
  obtain ⟨_, _, _, _, cfg'⟩ := exRow_dicho exZeros (exImgSix exRing) (v := .int 0) (v' := .int 0) 3 (.inl ⟨_, .inl rfl, rfl⟩) (.inl ⟨_, .inl rfl, rfl⟩)
  have ct := exWorldRow_contract s1 s2
  have wf := exUserInterval_wf (v := .str "row.tif") (v' := .str "col.tif") trivial trivial 1
  have wf' := exUserInterval_wf (v := .int 0) (v' := .int 0) trivial trivial 3
  have h1 := exRow_runs s1 s2 (v := .str "row.tif") (v' := .str "col.tif") trivial trivial 1 (by decide +kernel)
  have h2 := exRow_runs s1 s2 (v := .int 0) (v' := .int 0) trivial trivial 3 (by decide +kernel)
  obtain ⟨files, rest, files', rest', left, right, moved, o, o', im, -, fw, key⟩ := hst _ _ _ _ _ _ _ _ _ _ _ _ _ _ _ 6 6 _ _ _ _ _ _ _ _ _ _ _
    wf wf' ct.disk ct.pandora ct.keeps rfl cfg cfg' (by decide)
    (by
      intro a b q1 q2 q3 q4
      have : ∀ x y, -2 ≤ exGridRow.get x y ∧ exGridRow.get x y ≤ 2 := by
        intro x y
        simp only [exGridRow]
        split_ifs <;> omega
      have := this a.toNat b.toNat
      simp only [initAt, exGrids, if_true]
      omega)
    (fun _ _ _ _ _ _ => ⟨le_refl _, le_refl _⟩) h1 h2
  obtain ⟨rfl, rfl⟩ := exWorldImgs_images (l := exZeros) (r := exImgSix exRing) im
  obtain ⟨fs, _, w1, w2⟩ := exRing_grid (fun _ _ => rfl) cfg wf h1
  obtain ⟨fs', _, w1', w2'⟩ := exRing_const (fun _ _ => rfl) cfg' wf' h2
  have e1 := o.symm.trans w1
  have e2 := o'.symm.trans w1'
  simp only [List.cons.injEq, Written.rasters.injEq] at e1 e2
  obtain ⟨rfl, -⟩ := e1
  obtain ⟨rfl, -⟩ := e2
  have v := key 3 (by decide) 2 (by decide) (exRing_inside (fw (by simp [exImgSix, exLeftImg]) 3 2) rfl (by decide) (by decide))
  exact w2' (v.trans w2)

/-- On these images, with the same intervals everywhere, enlarging the row interval from `[-1, 1]` to `[-3, 3]` changes nothing at the pixel of row 3
and column 2. -/
example : ∃ files rest files' rest',
    Main.main (exWorldRow exZeros (exImgSix exRing)) (exUserInterval (.int 0) (.int 0) 1) = (.rasters files :: rest, none) ∧
    Main.main (exWorldRow exZeros (exImgSix exRing)) (exUserInterval (.int 0) (.int 0) 3) = (.rasters files' :: rest', none) ∧
    files'.row.values 3 2 = files.row.values 3 2 ∧ files'.col.values 3 2 = files.col.values 3 2 ∧ files'.score.values 3 2 = files.score.values 3 2 := by
  have s1 : exSized exZeros := ⟨⟨rfl, rfl⟩, rfl, rfl⟩
  have s2 : exSized (exImgSix exRing) := ⟨⟨rfl, rfl⟩, rfl, rfl⟩
  obtain ⟨_, _, _, _, cfg⟩ := exRow_dicho exZeros (exImgSix exRing) (v := .int 0) (v' := .int 0) 1 (.inl ⟨_, .inl rfl, rfl⟩) (.inl ⟨_, .inl rfl, rfl⟩)
  obtain ⟨_, _, _, _, cfg'⟩ := exRow_dicho exZeros (exImgSix exRing) (v := .int 0) (v' := .int 0) 3 (.inl ⟨_, .inl rfl, rfl⟩) (.inl ⟨_, .inl rfl, rfl⟩)
  have ct := exWorldRow_contract s1 s2
  have h1 := exRow_runs s1 s2 (v := .int 0) (v' := .int 0) trivial trivial 1 (by decide +kernel)
  have h2 := exRow_runs s1 s2 (v := .int 0) (v' := .int 0) trivial trivial 3 (by decide +kernel)
  obtain ⟨files, rest, files', rest', left, right, moved, o, o', im, -, fw, -, -, key⟩ := C140_wider_dichotomy_partial _ _ _ _ _ _ _ _ _ _ _ _ _ _ _
    6 6 _ _ _ _ _ _ _ _ _ _ _ (exUserInterval_wf (v := .int 0) (v' := .int 0) trivial trivial 1)
    (exUserInterval_wf (v := .int 0) (v' := .int 0) trivial trivial 3) ct.disk ct.pandora ct.keeps rfl cfg cfg' (by decide)
    (fun _ _ _ _ _ _ => ⟨by simp [initAt], by simp [initAt]⟩) (fun _ _ _ _ _ _ => ⟨le_refl _, le_refl _⟩)
    ⟨fun _ _ _ _ _ _ _ _ => rfl, fun _ _ _ _ _ _ _ _ => rfl⟩ ⟨fun _ _ _ _ _ _ _ _ => rfl, fun _ _ _ _ _ _ _ _ => rfl⟩ h1 h2
  obtain ⟨rfl, rfl⟩ := exWorldImgs_images (l := exZeros) (r := exImgSix exRing) im
  exact ⟨files, rest, files', rest', by rw [h1]; exact congrArg (·, none) o, by rw [h2]; exact congrArg (·, none) o',
    key 3 (by decide) 2 (by decide) (exRing_inside (fw (by simp [exImgSix, exLeftImg]) 3 2) rfl (by decide) (by decide))⟩

end Verif.Props
