import Verif.Spec.Flowed
import Verif.Spec.Searched
import Verif.Props.FlowAgainst
import Verif.Props.Radiometry
import Verif.Props.Local

/-!
# C127, C128: two executions with an optical flow
-/

namespace Verif.Props

open Verif Verif.Config Verif.Machine Verif.ImgTools Verif.MatchingCost Verif.Disparity Verif.Run Verif.Main Verif.Spec Verif.Save
  Verif.Statistics Verif.OpticalFlow

set_option linter.unusedSectionVars false

variable {K : Type} [Field K] [LinearOrder K] [IsStrictOrderedRing K] [FloorRing K]

/-! ### One pixel -/

theorem intPart_unique {x : K} {s t : Int} (h : IntPart x s) (h' : IntPart x t) : s = t := by
  obtain ⟨a1, a2, a3⟩ := h
  obtain ⟨b1, b2, b3⟩ := h'
  have e1 : |(s : K)| < |(t : K)| + 1 := lt_of_le_of_lt a1 b2
  have e2 : |(t : K)| < |(s : K)| + 1 := lt_of_le_of_lt b1 a2
  have e3 : |s| < |t| + 1 := by exact_mod_cast e1
  have e4 : |t| < |s| + 1 := by exact_mod_cast e2
  have e5 : |s| = |t| := by omega
  rcases abs_eq_abs.1 e5 with h | h
  · exact h
  · subst h
    by_cases ht : t = 0
    · simp [ht]
    · exfalso
      have hx : x ≠ 0 := by
        rintro rfl
        have hc : (1 : K) ≤ |(t : K)| := by
          have : (1 : Int) ≤ |t| := Int.one_le_abs ht
          exact_mod_cast this
        rw [abs_zero] at b1
        linarith
      have htk : (t : K) ≠ 0 := by exact_mod_cast ht
      push_cast at a3
      have : (t : K) * x = 0 := le_antisymm (by linarith) b3
      rcases mul_eq_zero.1 this with h | h
      · exact htk h
      · exact hx h

theorem startShift_unique {invalid d : F K} {s t : Int} (h : StartShift invalid d s) (h' : StartShift invalid d t) : s = t := by
  rcases h with ⟨rfl, h⟩ | ⟨x, hx, hn, h⟩ <;> rcases h' with ⟨rfl, h'⟩ | ⟨x', hx', hn', h'⟩
  · rfl
  · rcases h with h | h
    · rw [h] at hx'; simp at hx'
    · exact absurd h hn'
  · rcases h' with h' | h'
    · rw [h'] at hx; simp at hx
    · exact absurd h' hn
  · rw [hx, F.fin.injEq] at hx'
    subst hx'
    exact intPart_unique h h'

/-- The trajectories of windows which keep a relation `I`, when the motions are related by `τ`. -/
theorem trajectory_moved {flow flow' : Win K → Win K → F K × F K} {warp warp' : Win K → F K → F K → Win K} {left left' : Win K}
    (τ : F K × F K → F K × F K) (I : Win K → Win K → Prop)
    (small : ∀ m, (F.lt (fabs (τ m).1) (.fin 1) ∧ F.lt (fabs (τ m).2) (.fin 1)) ↔ (F.lt (fabs m.1) (.fin 1) ∧ F.lt (fabs m.2) (.fin 1)))
    (sub : ∀ d m, (fsub (τ d).1 (τ m).1, fsub (τ d).2 (τ m).2) = τ (fsub d.1 m.1, fsub d.2 m.2))
    (clips : ∀ m, (clip (τ m).1, clip (τ m).2) = τ (clip m.1, clip m.2))
    (hf : ∀ R R', I R R' → flow' left' R' = τ (flow left R))
    (hw : ∀ R R' m, I R R' → I (warp R m.1 m.2) (warp' R' (τ m).1 (τ m).2)) (it : Nat) :
    ∀ R R' d, I R R' → trajectory flow' warp' left' it R' (τ d) = τ (trajectory flow warp left it R d) := by
  induction it with
  | zero => intro R R' d _; rfl
  | succ k ih =>
    intro R R' d h
    simp only [trajectory, hf R R' h]
    by_cases hs : F.lt (fabs (flow left R).1) (.fin 1) ∧ F.lt (fabs (flow left R).2) (.fin 1)
    · rw [if_pos hs, if_pos ((small _).2 hs), sub]
      exact ih _ _ _ (hw R R' _ h)
    · rw [if_neg hs, if_neg fun q => hs ((small _).1 q)]
      have hc := clips (flow left R)
      have hd := sub d (clip (flow left R).1, clip (flow left R).2)
      rw [← hc] at hd
      exact hd

theorem mem_cells {a : Win K} {p : Nat × Nat} (h : p ∈ cellsOf a) : p.1 < a.h ∧ p.2 < a.w := by
  unfold cellsOf at h
  rw [List.mem_map] at h
  obtain ⟨k, hk, rfl⟩ := h
  rw [List.mem_range] at hk
  have hw : 0 < a.w := by
    rcases Nat.eq_zero_or_pos a.w with h | h
    · rw [h, Nat.mul_zero] at hk; omega
    · exact h
  exact ⟨Nat.div_lt_of_lt_mul (by rw [Nat.mul_comm]; exact hk), Nat.mod_lt _ hw⟩

theorem gradient1_congr {n : Nat} (hn : 2 ≤ n) {g g' : Nat → F K} (h : ∀ i < n, g' i = g i) {i : Nat} (hi : i < n) :
    gradient1 n g' i = gradient1 n g i := by
  unfold gradient1
  split_ifs
  · rw [h 1 (by omega), h 0 (by omega)]
  · rw [h (n - 1) (by omega), h (n - 2) (by omega)]
  · rw [h (i + 1) (by omega), h (i - 1) (by omega)]

theorem affine_sub {k : K} (c : K) (hk : 0 < k) (a b : F K) : fsub (affine k c a) (affine k c b) = F.mul (.fin k) (fsub a b) := by
  have e : k ≠ 0 := hk.ne'
  cases a <;> cases b <;> simp [affine, fsub, F.mul, F.add, F.neg, e, hk]
  ring

theorem mul_half {k : K} (hk : 0 < k) (a : F K) : F.mul (F.mul (.fin k) a) (.fin (1 / 2)) = F.mul (.fin k) (F.mul a (.fin (1 / 2))) := by
  have e : k ≠ 0 := hk.ne'
  cases a <;> simp [F.mul, e, hk]
  ring

/-- The gradient of an affine change. -/
theorem gradient1_affine {k : K} (c : K) (hk : 0 < k) {n : Nat} (hn : 2 ≤ n) {g g' : Nat → F K} (h : ∀ i < n, g' i = affine k c (g i))
    {i : Nat} (hi : i < n) : gradient1 n g' i = F.mul (.fin k) (gradient1 n g i) := by
  unfold gradient1
  split_ifs
  · rw [h 1 (by omega), h 0 (by omega), affine_sub c hk]
  · rw [h (n - 1) (by omega), h (n - 2) (by omega), affine_sub c hk]
  · rw [h (i + 1) (by omega), h (i - 1) (by omega), affine_sub c hk, mul_half hk]

theorem cellsOf_size {a b : Win K} (h : b.h = a.h ∧ b.w = a.w) : cellsOf b = cellsOf a := by
  unfold cellsOf
  rw [h.1, h.2]

/-- The motion between windows seen through the same affine change. -/
theorem lucasKanade_affine {e : Ext K} {k c : K} (hk : 0 < k) (he : SolvesScaled e k) {invalid : F K} {left left' right right' : Win K}
    (hs : 2 ≤ left.h ∧ 2 ≤ left.w) (hsr : right.h = left.h ∧ right.w = left.w) (hl : WindowSeen (affine k c) left left')
    (hr : WindowSeen (affine k c) right right') : lucasKanade e invalid left' right' = lucasKanade e invalid left right := by
  obtain ⟨sl, vl⟩ := hl
  obtain ⟨sr, vr⟩ := hr
  have h1 : gradMatrix left' = (gradMatrix left).map (Prod.map (F.mul (.fin k)) (F.mul (.fin k))) := by
    unfold gradMatrix
    rw [cellsOf_size sl, List.map_map]
    refine List.map_congr_left fun p hp => ?_
    obtain ⟨p1, p2⟩ := mem_cells hp
    rw [sl.1, sl.2]
    refine Prod.ext ?_ ?_
    · exact gradient1_affine c hk hs.2 (fun i hi => vl _ p1 i hi) p2
    · exact gradient1_affine c hk hs.1 (fun i hi => vl i hi _ p2) p1
  have h2 : timeMatrix left' right' = (timeMatrix left right).map (F.mul (.fin k)) := by
    unfold timeMatrix
    rw [cellsOf_size sl, List.map_map]
    refine List.map_congr_left fun p hp => ?_
    obtain ⟨p1, p2⟩ := mem_cells hp
    rw [vl _ p1 _ p2, vr _ (by omega) _ (by omega), affine_sub c hk]
    rfl
  unfold lucasKanade
  rw [h1, h2, he]

/-- The motion only depends on the values of the windows. -/
theorem lucasKanade_local {e : Ext K} {invalid : F K} {left left' right right' : Win K}
    (hs : 2 ≤ left.h ∧ 2 ≤ left.w) (hsr : right.h = left.h ∧ right.w = left.w) (hl : WindowSeen id left left')
    (hr : WindowSeen id right right') : lucasKanade e invalid left' right' = lucasKanade e invalid left right := by
  obtain ⟨sl, vl⟩ := hl
  obtain ⟨sr, vr⟩ := hr
  have h1 : gradMatrix left' = gradMatrix left := by
    unfold gradMatrix
    rw [cellsOf_size sl]
    refine List.map_congr_left fun p hp => ?_
    obtain ⟨p1, p2⟩ := mem_cells hp
    rw [sl.1, sl.2]
    refine Prod.ext ?_ ?_
    · exact gradient1_congr hs.2 (fun i hi => vl _ p1 i hi) p2
    · exact gradient1_congr hs.1 (fun i hi => vl i hi _ p2) p1
  have h2 : timeMatrix left' right' = timeMatrix left right := by
    unfold timeMatrix
    rw [cellsOf_size sl]
    refine List.map_congr_left fun p hp => ?_
    obtain ⟨p1, p2⟩ := mem_cells hp
    rw [vl _ p1 _ p2, vr _ (by omega) _ (by omega)]
    rfl
  unfold lucasKanade
  rw [h1, h2]

/-- The refined disparities from the same start, when the windows keep a relation which keeps the motions. -/
theorem flowPixel_seen {e : Ext K} {half it : Nat} {left right left' right' : Img K} {r c r' c' lor hir loc hic : Int}
    {invalid r0 c0 row col row' col' : F K} {g : F K → F K} (hhalf : 1 ≤ half) (hsz : KeepsSize e) (hres : ResamplesThrough e g)
    (hflow : ∀ a b a' b' : Win K, (2 ≤ a.h ∧ 2 ≤ a.w) → (b.h = a.h ∧ b.w = a.w) → WindowSeen g a a' → WindowSeen g b b' →
      lucasKanade e invalid a' b' = lucasKanade e invalid a b)
    (hl : WindowSeen g (windowOf left half r c) (windowOf left' half r' c'))
    (hr : ∀ sr sc, StartShift invalid r0 sr → StartShift invalid c0 sc →
      WindowSeen g (rightWindow right half (r + sr) (c + sc)) (rightWindow right' half (r' + sr) (c' + sc)))
    (p : FlowPixel e half it left right r c lor hir loc hic invalid r0 c0 row col)
    (p' : FlowPixel e half it left' right' r' c' lor hir loc hic invalid r0 c0 row' col') : row' = row ∧ col' = col := by
  obtain ⟨sr, sc, s1, s2, t, rfl, rfl, rfl⟩ := p
  obtain ⟨sr', sc', s1', s2', t', rfl, rfl, rfl⟩ := p'
  obtain rfl := startShift_unique s1 s1'
  obtain rfl := startShift_unique s2 s2'
  have key := trajectory_moved (flow := lucasKanade e invalid) (flow' := lucasKanade e invalid) (warp := e.warp) (warp' := e.warp)
    (left := windowOf left half r c) (left' := windowOf left' half r' c') id
    (fun R R' => (R.h = 2 * half + 1 ∧ R.w = 2 * half + 1) ∧ WindowSeen g R R') (fun _ => Iff.rfl) (fun _ _ => rfl) (fun _ => rfl)
    (fun R R' h => hflow _ _ _ _ ⟨by show 2 ≤ 2 * half + 1; omega, by show 2 ≤ 2 * half + 1; omega⟩ h.1 hl h.2)
    (fun R R' m h => ⟨by rw [(hsz _ _ _).1, (hsz _ _ _).2]; exact h.1, hres _ _ _ _ h.2⟩) it _ _ (r0, c0)
    ⟨by unfold rightWindow; split_ifs <;> exact ⟨rfl, rfl⟩, hr sr sc s1 s2⟩
  rw [id, id] at key
  rw [key]
  exact ⟨rfl, rfl⟩

/-! ### Whole executions -/

section
variable {w : World K} {user p mc inp l r f : Fields} {H W : Nat} {dRow dCol : Disp} {sr sc : Nat} {invalid : F K} {n hw : Nat} {me : Measure}
  {ker : List (F K × F K) → F K} {it half : Nat} {out : List (Written K)}

theorem flowed_stages (cfg : Flowed w user p mc inp l r f H W dRow dCol sr sc invalid n hw me ker it half) (wf : user.wf) (hpan : PandoraContract w)
    (h : Main.main w user = (out, none)) : Nonempty (Stages w user p out) := by
  obtain ⟨pl, mc', disp, a1, a2, a3, a4, a5⟩ := cfg.asks.steps
  rw [cfg.pipeline, Option.some.injEq, J.obj.injEq] at a1
  subst a1
  have hd : "disparity" ∈ p.keys := (Fields.get_isSome p _).1 (by rw [a3]; rfl)
  exact main_stages w user p out wf hpan cfg.pipeline hd h

/-- The pixels of an execution with an optical flow on full images. -/
theorem Stages.flowRasters (s : Stages w user p out)
    (cfg : Flowed w user p mc inp l r f H W dRow dCol sr sc invalid n hw me ker it half) (wf : user.wf)
    (hdisk : DiskContract w H W) (hkeeps : PandoraKeeps w.pandora) (hoff : OffsetContract w) :
    (0 < n ∧ 1 ≤ half) ∧ ImagesRead w l r none s.left.img s.right.img ∧
      ((s.left.img.h = H ∧ s.left.img.w = W) ∧ s.right.img.h = H ∧ s.right.img.w = W) ∧
      ((s.left.img.row0 = 0 ∧ s.left.img.col0 = 0) ∧ s.right.img.row0 = 0 ∧ s.right.img.col0 = 0) ∧
      (∀ f ∈ [s.files.row, s.files.col, s.files.score], (∀ i, i < f.h ↔ i * sr < H) ∧ ∀ j, j < f.w ↔ j * sc < W) ∧
      ∀ i < s.files.row.h, ∀ j < s.files.row.w, ∃ gmin gmax : Arr2 Int,
        (∀ y : K, ((initAt dCol ((i * sr : Nat) : Int) ((j * sc : Nat) : Int) - dCol.range : Int) : K) ≤ y →
          y ≤ ((initAt dCol ((i * sr : Nat) : Int) ((j * sc : Nat) : Int) + dCol.range : Int) : K) →
          ((gmin.get (i * sr) (j * sc) : Int) : K) ≤ y ∧ y ≤ ((gmax.get (i * sr) (j * sc) : Int) : K)) ∧
        ∃ r0 c0, BestPair me (AskedPair dRow dCol n ((i * sr : Nat) : Int) ((j * sc : Nat) : Int))
            (fun x y => Pandora.windowCost hw ker s.left.img (slabImg w.run.zoom s.right.img n x) gmin gmax (i * sr) (j * sc) y) invalid
            r0 c0 (s.files.score.values i j) ∧
          (InnerPoint 0 H sr half ((i * sr : Nat) : Int) ∧ InnerPoint 0 W sc half ((j * sc : Nat) : Int) →
            FlowPixel w.run.flow half it s.left.img s.right.img ((i * sr : Nat) : Int) ((j * sc : Nat) : Int)
              (initAt dRow ((i * sr : Nat) : Int) ((j * sc : Nat) : Int) - dRow.range)
              (initAt dRow ((i * sr : Nat) : Int) ((j * sc : Nat) : Int) + dRow.range)
              (initAt dCol ((i * sr : Nat) : Int) ((j * sc : Nat) : Int) - dCol.range)
              (initAt dCol ((i * sr : Nat) : Int) ((j * sc : Nat) : Int) + dCol.range) invalid r0 c0
              (s.files.row.values i j) (s.files.col.values i j)) ∧
          (¬ (InnerPoint 0 H sr half ((i * sr : Nat) : Int) ∧ InnerPoint 0 W sc half ((j * sc : Nat) : Int)) →
            s.files.row.values i j = invalid ∧ s.files.col.values i j = invalid) := by
  obtain ⟨hn, dRow', dCol', half', it', ml, mr, gmin, gmax, h1, k0, k1, -, i1, i2, i3, z, i4, i5, i6⟩ :=
    s.flowWinner hdisk hkeeps hoff wf cfg.pipeline cfg.asks.zone (by omega) cfg.refinement cfg.method cfg.cost cfg.matcher
  obtain ⟨j1, j2⟩ := i1 cfg.noEstimation
  obtain ⟨⟨rfl, rfl⟩, ⟨rfl, rfl⟩, rfl⟩ := s.asked wf cfg.pipeline cfg.noEstimation cfg.asks j1 j2
  obtain rfl := flow_iterations_unique cfg.iterations k1
  obtain rfl := half_unique cfg.window k0
  have him := s.images wf cfg.input cfg.left cfg.right
  have hroi : s.roi = none := by
    have r1 := s.roiFor
    cases hx : s.roi with
    | none => rfl
    | some R =>
      rw [hx] at r1
      obtain ⟨v, hv, -⟩ := r1
      rw [cfg.full] at hv; simp at hv
  rw [hroi] at him i2
  obtain ⟨f1, f2, f3, f4, -⟩ := i2
  have sz : s.right.img.h = H ∧ s.right.img.w = W := by omega
  have r0 : s.right.img.row0 = 0 ∧ s.right.img.col0 = 0 := by
    obtain ⟨-, -, l, r, h1, h2, h3, h4⟩ := created_input s.datasets
    rw [hroi] at h4
    exact ⟨(hdisk.whole _ _ h4).1, (hdisk.whole _ _ h4).2.1⟩
  refine ⟨⟨hn, h1⟩, him, ⟨⟨f3, f4⟩, sz⟩, ⟨⟨f1, f2⟩, r0⟩, fun f hf => ?_,
    fun i hi j hj => ⟨gmin, gmax, ?_⟩⟩
  · have hz := z f hf
    refine ⟨fun i => ?_, fun j => ?_⟩
    · rw [hz.rows]
      have : (((i * s.plan.cfg.stepRow : Nat)) : Int) = (i : Int) * s.plan.cfg.stepRow := by push_cast; rfl
      omega
    · rw [hz.cols]
      have : (((j * s.plan.cfg.stepCol : Nat)) : Int) = (j : Int) * s.plan.cfg.stepCol := by push_cast; rfl
      omega
  · obtain ⟨⟨a, b, ha, hb, e1, e2⟩, r0, c0, key, -, -, inner, outer⟩ := i6 i hi j hj ((i * s.plan.cfg.stepRow : Nat) : Int)
      ((j * s.plan.cfg.stepCol : Nat) : Int) (by push_cast; ring) (by push_cast; ring)
    rw [f1] at e1
    rw [f2] at e2
    have ea : i * s.plan.cfg.stepRow = a := by omega
    have eb : j * s.plan.cfg.stepCol = b := by omega
    rw [ea, eb, f1, f2, sub_zero, sub_zero, Int.toNat_natCast, Int.toNat_natCast] at key
    rw [f1, f2, f3, f4, ea, eb] at inner outer
    rw [ea, eb]
    refine ⟨fun y y1 y2 => ⟨?_, ?_⟩, r0, c0, key, inner, outer⟩
    · rw [i4 a ha b hb, f1, f2, zero_add, zero_add]
      exact le_trans (Int.cast_le.2 (by omega)) y1
    · rw [i5 a ha b hb, f1, f2, zero_add, zero_add]
      exact le_trans y2 (Int.cast_le.2 (by omega))

/-- The rasters of an execution with an optical flow on full images. -/
theorem flow_rasters (cfg : Flowed w user p mc inp l r f H W dRow dCol sr sc invalid n hw me ker it half) (wf : user.wf)
    (hdisk : DiskContract w H W) (hpan : PandoraContract w) (hkeeps : PandoraKeeps w.pandora) (hoff : OffsetContract w)
    (h : Main.main w user = (out, none)) :
    (0 < n ∧ 1 ≤ half) ∧ ∃ files rest left right, out = .rasters files :: rest ∧ ImagesRead w l r none left right ∧
      ((left.h = H ∧ left.w = W) ∧ right.h = H ∧ right.w = W) ∧
      ((left.row0 = 0 ∧ left.col0 = 0) ∧ right.row0 = 0 ∧ right.col0 = 0) ∧
      (∀ f ∈ [files.row, files.col, files.score], (∀ i, i < f.h ↔ i * sr < H) ∧ ∀ j, j < f.w ↔ j * sc < W) ∧
      ∀ i < files.row.h, ∀ j < files.row.w, ∃ gmin gmax : Arr2 Int,
        (∀ y : K, ((initAt dCol ((i * sr : Nat) : Int) ((j * sc : Nat) : Int) - dCol.range : Int) : K) ≤ y →
          y ≤ ((initAt dCol ((i * sr : Nat) : Int) ((j * sc : Nat) : Int) + dCol.range : Int) : K) →
          ((gmin.get (i * sr) (j * sc) : Int) : K) ≤ y ∧ y ≤ ((gmax.get (i * sr) (j * sc) : Int) : K)) ∧
        ∃ r0 c0, BestPair me (AskedPair dRow dCol n ((i * sr : Nat) : Int) ((j * sc : Nat) : Int))
            (fun x y => Pandora.windowCost hw ker left (slabImg w.run.zoom right n x) gmin gmax (i * sr) (j * sc) y) invalid
            r0 c0 (files.score.values i j) ∧
          (InnerPoint 0 H sr half ((i * sr : Nat) : Int) ∧ InnerPoint 0 W sc half ((j * sc : Nat) : Int) →
            FlowPixel w.run.flow half it left right ((i * sr : Nat) : Int) ((j * sc : Nat) : Int)
              (initAt dRow ((i * sr : Nat) : Int) ((j * sc : Nat) : Int) - dRow.range)
              (initAt dRow ((i * sr : Nat) : Int) ((j * sc : Nat) : Int) + dRow.range)
              (initAt dCol ((i * sr : Nat) : Int) ((j * sc : Nat) : Int) - dCol.range)
              (initAt dCol ((i * sr : Nat) : Int) ((j * sc : Nat) : Int) + dCol.range) invalid r0 c0
              (files.row.values i j) (files.col.values i j)) ∧
          (¬ (InnerPoint 0 H sr half ((i * sr : Nat) : Int) ∧ InnerPoint 0 W sc half ((j * sc : Nat) : Int)) →
            files.row.values i j = invalid ∧ files.col.values i j = invalid) := by
  obtain ⟨s⟩ := flowed_stages cfg wf hpan h
  obtain ⟨a, b, c, d, e, key⟩ := s.flowRasters cfg wf hdisk hkeeps hoff
  exact ⟨a, s.files, _, s.left.img, s.right.img, s.outIs, b, c, d, e, key⟩

end

theorem innerPoint_fits {H step half : Nat} {x : Int} (h : InnerPoint 0 H step half x) : (half : Int) ≤ x ∧ x + half < H := by
  obtain ⟨⟨k, h1, h2⟩, k', h3, h4⟩ := h
  have e1 : ((k * step : Nat) : Int) = (k : Int) * step := by push_cast; rfl
  have e2 : ((k' * step : Nat) : Int) = (k' : Int) * step := by push_cast; rfl
  omega

theorem right_seen {g : F K → F K} (hg : g .nan = .nan) {right right' : Img K} {half : Nat} {x y : Int}
    (hs : right'.h = right.h ∧ right'.w = right.w) (h0 : (right.row0 = 0 ∧ right.col0 = 0) ∧ right'.row0 = 0 ∧ right'.col0 = 0)
    (hv : ∀ a b : Nat, a < right.h → b < right.w → x ≤ a + half → (a : Int) ≤ x + half → y ≤ b + half → (b : Int) ≤ y + half →
      right'.im a b = g (right.im a b)) :
    WindowSeen g (rightWindow right half x y) (rightWindow right' half x y) := by
  obtain ⟨⟨o1, o2⟩, o3, o4⟩ := h0
  have e : Spec.WindowFits right' half x y ↔ Spec.WindowFits right half x y := by
    unfold Spec.WindowFits
    rw [o1, o2, o3, o4, hs.1, hs.2]
  unfold rightWindow
  by_cases hf : Spec.WindowFits right half x y
  · rw [if_pos hf, if_pos (e.2 hf)]
    obtain ⟨f1, f2, f3, f4⟩ := hf
    refine ⟨⟨rfl, rfl⟩, fun i hi j hj => ?_⟩
    have hi : i < 2 * half + 1 := hi
    have hj : j < 2 * half + 1 := hj
    show right'.im (x - half - right'.row0 + i).toNat (y - half - right'.col0 + j).toNat =
      g (right.im (x - half - right.row0 + i).toNat (y - half - right.col0 + j).toNat)
    rw [o1, o2, o3, o4]
    exact hv _ _ (by omega) (by omega) (by omega) (by omega) (by omega) (by omega)
  · rw [if_neg hf, if_neg fun q => hf (e.1 q)]
    exact ⟨⟨rfl, rfl⟩, fun _ _ _ _ => hg.symm⟩

theorem left_seen {g : F K → F K} {left left' : Img K} {half : Nat} {a b : Nat}
    (h0 : (left.row0 = 0 ∧ left.col0 = 0) ∧ left'.row0 = 0 ∧ left'.col0 = 0) (ha : half ≤ a ∧ a + half < left.h) (hb : half ≤ b ∧ b + half < left.w)
    (hv : ∀ x y : Nat, x < left.h → y < left.w → a ≤ x + half → x ≤ a + half → b ≤ y + half → y ≤ b + half → left'.im x y = g (left.im x y)) :
    WindowSeen g (windowOf left half a b) (windowOf left' half a b) := by
  obtain ⟨⟨o1, o2⟩, o3, o4⟩ := h0
  refine ⟨⟨rfl, rfl⟩, fun i hi j hj => ?_⟩
  have hi : i < 2 * half + 1 := hi
  have hj : j < 2 * half + 1 := hj
  show left'.im ((a : Int) - half - left'.row0 + i).toNat ((b : Int) - half - left'.col0 + j).toNat =
    g (left.im ((a : Int) - half - left.row0 + i).toNat ((b : Int) - half - left.col0 + j).toNat)
  rw [o1, o2, o3, o4]
  exact hv _ _ (by omega) (by omega) (by omega) (by omega) (by omega) (by omega)

/-- C127: brightness and contrast with an optical flow. Two successful executions on full images, without estimation, with the same steps, subpixel
factor, window cost, intervals, invalid value, iterations and half window: the values and no-data values of both images of the second are those of
the first multiplied by `k > 0` and shifted by `c`, with the same flags, the measure of windows so seen is the measure seen through `φ`, which keeps
the order of the scores, the solver gives the same motion when all the equations are multiplied by `k`, and the resampling of a window follows the
change. At each pixel the disparities are the same, even refined, and both scores are invalid or the score of the second is the one of the
first seen through `φ`. -/
theorem C127_brightness_flow (w w' : World K) (user user' p p' mc mc' inp inp' l r l' r' f f' : Fields) (out out' : List (Written K)) (H W : Nat)
    (dRow dCol dRow' dCol' : Disp) (sr sc : Nat) (invalid : F K) (n hw : Nat) (me : Measure) (ker : List (F K × F K) → F K) (it half : Nat)
    (k c : K) (φ : F K → F K) (wf : user.wf) (wf' : user'.wf)
    (hdisk : DiskContract w H W) (hpan : PandoraContract w) (hkeeps : PandoraKeeps w.pandora) (hoff : OffsetContract w)
    (hzoom : w.run.zoom = zoomLinear)
    (hdisk' : DiskContract w' H W) (hpan' : PandoraContract w') (hkeeps' : PandoraKeeps w'.pandora) (hoff' : OffsetContract w')
    (hzoom' : w'.run.zoom = zoomLinear)
    (cfg : Flowed w user p mc inp l r f H W dRow dCol sr sc invalid n hw me ker it half)
    (cfg' : Flowed w' user' p' mc' inp' l' r' f' H W dRow' dCol' sr sc invalid n hw me ker it half)
    (hext : w'.run.flow = w.run.flow) (hk : 0 < k) (hφ : Follows ker (affine k c) (affine k c) φ) (hsz : KeepsSize w.run.flow)
    (hres : ResamplesThrough w.run.flow (affine k c)) (hsolve : SolvesScaled w.run.flow k)
    (himg : ∀ left right left' right', ImagesRead w l r none left right → ImagesRead w' l' r' none left' right' →
      Regraded (affine k c) left left' ∧ Regraded (affine k c) right right')
    (ir : ∀ x < H, ∀ y < W, SameIntervalMoved dRow dRow' x y x y) (ic : ∀ x < H, ∀ y < W, SameIntervalMoved dCol dCol' x y x y)
    (h : Main.main w user = (out, none)) (h' : Main.main w' user' = (out', none)) :
    ∃ files rest files' rest', out = .rasters files :: rest ∧ out' = .rasters files' :: rest' ∧
      (∀ f ∈ [files.row, files.col, files.score], (∀ i, i < f.h ↔ i * sr < H) ∧ ∀ j, j < f.w ↔ j * sc < W) ∧
      (∀ f ∈ [files'.row, files'.col, files'.score], (∀ i, i < f.h ↔ i * sr < H) ∧ ∀ j, j < f.w ↔ j * sc < W) ∧
      ∀ i < files.row.h, ∀ j < files.row.w,
        files'.row.values i j = files.row.values i j ∧ files'.col.values i j = files.col.values i j ∧
        ((files.score.values i j = invalid ∧ files'.score.values i j = invalid) ∨
          files.score.values i j ≠ .nan ∧ files'.score.values i j = φ (files.score.values i j)) := by
  obtain ⟨⟨hn, hh⟩, files, rest, left, right, o, im, ⟨⟨s1, s2⟩, s3, s4⟩, ⟨z1, z2⟩, z, key⟩ := flow_rasters cfg wf hdisk hpan hkeeps hoff h
  obtain ⟨-, files', rest', left', right', o', im', ⟨⟨s1', s2'⟩, s3', s4'⟩, ⟨z1', z2'⟩, z', key'⟩ :=
    flow_rasters cfg' wf' hdisk' hpan' hkeeps' hoff' h'
  obtain ⟨gl', gr'⟩ := himg _ _ _ _ im im'
  refine ⟨files, rest, files', rest', o, o', z, z', fun i hi j hj => ?_⟩
  have bi : i * sr < H := ((z _ List.mem_cons_self).1 i).1 hi
  have bj : j * sc < W := ((z _ List.mem_cons_self).2 j).1 hj
  obtain ⟨gmin, gmax, g, r0, c0, b1, p1, q1⟩ := key i hi j hj
  obtain ⟨gmin', gmax', g', r1, c1, b2, p2, q2⟩ := key' i (((z' _ List.mem_cons_self).1 i).2 bi) j (((z' _ List.mem_cons_self).2 j).2 bj)
  rw [hzoom] at b1
  rw [hzoom'] at b2
  rw [hext] at p2
  generalize i * sr = a at *
  generalize j * sc = b at *
  obtain ⟨e1, e2⟩ := ir _ bi _ bj
  obtain ⟨e3, e4⟩ := ic _ bi _ bj
  rw [← e3, ← e4] at g'
  rw [← e1, ← e2, ← e3, ← e4] at p2
  have hask : ∀ x y : K, AskedPair dRow' dCol' n a b x y ↔ AskedPair dRow dCol n a b x y := fun x y => by
    unfold AskedPair; rw [e1, e2, e3, e4]
  have best := best_seen hφ.nan hφ.order (fun x y q => by
    obtain ⟨⟨u, -, hx, -⟩, -, q3, q4⟩ := q
    exact window_seen hk ⟨⟨by omega, by omega⟩, by omega, by omega⟩ (by omega) (g y q3 q4) (g' y q3 q4) gl' gr'
      (slab_displaced right n hn x ⟨u, hx⟩) (slab_displaced right' n hn x ⟨u, hx⟩) hφ) b1 (best_asked hask b2)
  have start : r1 = r0 ∧ c1 = c0 ∧ ((files.score.values i j = invalid ∧ files'.score.values i j = invalid) ∨
      files.score.values i j ≠ .nan ∧ files'.score.values i j = φ (files.score.values i j)) := by
    rcases best with ⟨i1, i2, i3, i4, i5, i6⟩ | ⟨u1, u2, u3, u4⟩
    · exact ⟨i4.trans i1.symm, i5.trans i2.symm, .inl ⟨i3, i6⟩⟩
    · exact ⟨u2, u3, .inr ⟨u1, u4⟩⟩
  obtain ⟨rfl, rfl, hscore⟩ := start
  have hnan : affine k c (.nan : F K) = .nan := by simp [affine, F.mul, F.add]
  have disp : files'.row.values i j = files.row.values i j ∧ files'.col.values i j = files.col.values i j := by
    by_cases inn : InnerPoint 0 H sr half (a : Int) ∧ InnerPoint 0 W sc half (b : Int)
    · have f1 := innerPoint_fits inn.1
      have f2 := innerPoint_fits inn.2
      refine flowPixel_seen hh hsz hres (fun a b a' b' v1 v2 v3 v4 => lucasKanade_affine hk hsolve v1 v2 v3 v4)
        (left_seen ⟨z1, z1'⟩ (by omega) (by omega) fun x y hx hy _ _ _ _ => gl'.values x hx y hy)
        (fun s t _ _ => right_seen hnan ⟨by omega, by omega⟩ ⟨z2, z2'⟩ fun x y hx hy _ _ _ _ => gr'.values x hx y hy) (p1 inn) (p2 inn)
    · obtain ⟨y1, y2⟩ := q1 inn
      obtain ⟨y3, y4⟩ := q2 inn
      exact ⟨y3.trans y1.symm, y4.trans y2.symm⟩
  exact ⟨disp.1, disp.2, hscore⟩

/-- The displacement of the window of the right image is in the interval of the disparity, or is zero. -/
theorem startShift_in {invalid : F K} {me : Measure} {dRow dCol : Disp} {n : Nat} {a b : Int} {cost : K → K → F K} {r0 c0 s0 : F K}
    (h : BestPair me (AskedPair dRow dCol n a b) cost invalid r0 c0 s0) {s t : Int} (hs : StartShift invalid r0 s)
    (ht : StartShift invalid c0 t) :
    (min (initAt dRow a b - dRow.range) 0 ≤ s ∧ s ≤ max (initAt dRow a b + dRow.range) 0) ∧
      min (initAt dCol a b - dCol.range) 0 ≤ t ∧ t ≤ max (initAt dCol a b + dCol.range) 0 := by
  have one : ∀ {d : F K} {s lo hi : Int}, StartShift invalid d s →
      (d ≠ invalid → ∃ x, d = .fin x ∧ (lo : K) ≤ x ∧ x ≤ (hi : K)) → min lo 0 ≤ s ∧ s ≤ max hi 0 := by
    intro d s lo hi hs hd
    rcases hs with ⟨rfl, -⟩ | ⟨x, hx, hne, p1, p2, p3⟩
    · omega
    · obtain ⟨x', hx', l1, l2⟩ := hd hne
      rw [hx, F.fin.injEq] at hx'
      subst hx'
      rcases lt_or_ge x 0 with hneg | hpos
      · rw [abs_of_neg hneg] at p1 p2
        have s0 : (s : K) ≤ 0 := by
          by_contra hc
          push Not at hc
          have := mul_neg_of_pos_of_neg hc hneg
          linarith
        rw [abs_of_nonpos s0] at p1
        have : (lo : K) ≤ s := by linarith
        have h1 : lo ≤ s := by exact_mod_cast this
        have h2 : s ≤ 0 := by exact_mod_cast s0
        omega
      · rw [abs_of_nonneg hpos] at p1 p2
        have s0 : (0 : K) ≤ s := by
          by_contra hc
          push Not at hc
          rcases eq_or_lt_of_le hpos with h0 | h0
          · rw [← h0, abs_of_neg hc] at p1
            linarith
          · have := mul_neg_of_neg_of_pos hc h0
            linarith
        rw [abs_of_nonneg s0] at p1
        have : (s : K) ≤ hi := by linarith
        have h1 : s ≤ hi := by exact_mod_cast this
        have h2 : 0 ≤ s := by exact_mod_cast s0
        omega
  by_cases hex : ∃ x y, AskedPair dRow dCol n a b x y ∧ cost x y ≠ .nan
  · obtain ⟨x0, y0, ex, ey, ⟨y', q1, -⟩, ⟨x', q2, -⟩, -⟩ := h.smallest hex
    exact ⟨one hs fun _ => ⟨x0, ex, q1.2.1⟩, one ht fun _ => ⟨y0, ey, q2.2.2⟩⟩
  · push Not at hex
    obtain ⟨i1, i2, -⟩ := h.invalid hex
    exact ⟨one hs fun q => absurd i1 q, one ht fun q => absurd i2 q⟩

/-- C128: locality with an optical flow. Two successful executions on full images of the same size, without estimation, with the same steps,
subpixel factor, window cost, intervals, invalid value, iterations and half window, with a resampling which only depends on the values of the window:
at each pixel around which the images hold the same, in the left windows and in the part of the right image covered by the windows of the cost
displaced by its intervals and the windows of the flow displaced by its intervals or not at all, the three values are the same. -/
theorem C128_local_flow (w w' : World K) (user user' p p' mc mc' inp inp' l r l' r' f f' : Fields) (out out' : List (Written K)) (H W : Nat)
    (dRow dCol dRow' dCol' : Disp) (sr sc : Nat) (invalid : F K) (n hw : Nat) (me : Measure) (ker : List (F K × F K) → F K) (it half : Nat)
    (wf : user.wf) (wf' : user'.wf)
    (hdisk : DiskContract w H W) (hpan : PandoraContract w) (hkeeps : PandoraKeeps w.pandora) (hoff : OffsetContract w)
    (hzoom : w.run.zoom = zoomLinear)
    (hdisk' : DiskContract w' H W) (hpan' : PandoraContract w') (hkeeps' : PandoraKeeps w'.pandora) (hoff' : OffsetContract w')
    (hzoom' : w'.run.zoom = zoomLinear)
    (cfg : Flowed w user p mc inp l r f H W dRow dCol sr sc invalid n hw me ker it half)
    (cfg' : Flowed w' user' p' mc' inp' l' r' f' H W dRow' dCol' sr sc invalid n hw me ker it half)
    (hext : w'.run.flow = w.run.flow) (hsz : KeepsSize w.run.flow) (hres : ResamplesThrough w.run.flow id)
    (h : Main.main w user = (out, none)) (h' : Main.main w' user' = (out', none)) :
    ∃ files rest files' rest' left right left' right', out = .rasters files :: rest ∧ out' = .rasters files' :: rest' ∧
      ImagesRead w l r none left right ∧ ImagesRead w' l' r' none left' right' ∧
      (∀ f ∈ [files.row, files.col, files.score], (∀ i, i < f.h ↔ i * sr < H) ∧ ∀ j, j < f.w ↔ j * sc < W) ∧
      (∀ f ∈ [files'.row, files'.col, files'.score], (∀ i, i < f.h ↔ i * sr < H) ∧ ∀ j, j < f.w ↔ j * sc < W) ∧
      ∀ i j a b : Nat, i < files.row.h → j < files.row.w → a = i * sr → b = j * sc →
        SameIntervalAt dRow dRow' a b → SameIntervalAt dCol dCol' a b →
        SameAround hw left right left' right' a b (initAt dRow a b - dRow.range) (initAt dRow a b + dRow.range)
          (initAt dCol a b - dCol.range) (initAt dCol a b + dCol.range) →
        SameFlowAround half left right left' right' a b (initAt dRow a b - dRow.range) (initAt dRow a b + dRow.range)
          (initAt dCol a b - dCol.range) (initAt dCol a b + dCol.range) →
        files'.row.values i j = files.row.values i j ∧ files'.col.values i j = files.col.values i j ∧
          files'.score.values i j = files.score.values i j := by
  obtain ⟨⟨hn, hh⟩, files, rest, left, right, o, im, ⟨⟨s1, s2⟩, s3, s4⟩, ⟨z1, z2⟩, z, key⟩ := flow_rasters cfg wf hdisk hpan hkeeps hoff h
  obtain ⟨-, files', rest', left', right', o', im', ⟨⟨s1', s2'⟩, s3', s4'⟩, ⟨z1', z2'⟩, z', key'⟩ :=
    flow_rasters cfg' wf' hdisk' hpan' hkeeps' hoff' h'
  refine ⟨files, rest, files', rest', left, right, left', right', o, o', im, im', z, z', fun i j a b hi hj ha hb ⟨e1, e2⟩ ⟨e3, e4⟩ near nearF => ?_⟩
  have bi : i * sr < H := ((z _ List.mem_cons_self).1 i).1 hi
  have bj : j * sc < W := ((z _ List.mem_cons_self).2 j).1 hj
  obtain ⟨gmin, gmax, g, r0, c0, b1, p1, q1⟩ := key i hi j hj
  obtain ⟨gmin', gmax', g', r1, c1, b2, p2, q2⟩ := key' i (((z' _ List.mem_cons_self).1 i).2 bi) j (((z' _ List.mem_cons_self).2 j).2 bj)
  rw [hzoom] at b1
  rw [hzoom'] at b2
  rw [hext] at p2
  rw [← ha, ← hb] at b1 b2 p1 p2 q1 q2 g g'
  rw [← ha] at bi
  rw [← hb] at bj
  rw [← e3, ← e4] at g'
  rw [← e1, ← e2, ← e3, ← e4] at p2
  have hask : ∀ x y : K, AskedPair dRow' dCol' n a b x y ↔ AskedPair dRow dCol n a b x y := fun x y => by
    unfold AskedPair; rw [e1, e2, e3, e4]
  have costs : ∀ x y, AskedPair dRow dCol n a b x y → Pandora.windowCost hw ker left' (slabImg zoomLinear right' n x) gmin' gmax' a b y =
      Pandora.windowCost hw ker left (slabImg zoomLinear right n x) gmin gmax a b y := by
    rintro x y ⟨⟨kx, -, hkx, -⟩, ⟨q1, q2⟩, q3, q4⟩
    have D := slab_displaced right n hn x ⟨kx, hkx⟩
    have D' := slab_displaced right' n hn x ⟨kx, hkx⟩
    refine window_local ⟨⟨by omega, by omega⟩, by rw [D'.size.2, D.size.2]; omega⟩ (g y q3 q4) (g' y q3 q4) near.window near.centre ?_
      D.valid D'.valid
    intro hin x1 y1 k1 k2 k3 k4 k5
    rw [D.size.2] at k3
    have v : (slabImg zoomLinear right' n x).im x1 y1 = (slabImg zoomLinear right n x).im x1 y1 := by
      refine displaced_local D D' ⟨by omega, by omega⟩ near.noData (by omega) k3 fun q hq u1 u2 => near.searched q y1 hq k3 ?_ ?_ ?_ ?_
      · have : (x1 : Int) + (initAt dRow a b - dRow.range) ≤ ⌊(x1 : K) + x⌋ := by
          rw [Int.le_floor]; push_cast; push_cast at q1; linarith
        omega
      · have : ⌈(x1 : K) + x⌉ ≤ (x1 : Int) + (initAt dRow a b + dRow.range) := by
          rw [Int.ceil_le, Int.cast_add, Int.cast_natCast]; linarith
        omega
      · have : (b : Int) + (initAt dCol a b - dCol.range) ≤ ⌊(b : K) + y⌋ := by
          rw [Int.le_floor]; push_cast; push_cast at q3; linarith
        omega
      · have : ⌈(b : K) + y⌉ ≤ (b : Int) + (initAt dCol a b + dCol.range) := by
          rw [Int.ceil_le, Int.cast_add, Int.cast_natCast]; linarith
        omega
    exact ⟨v, by rw [D.flags, D'.flags, v, near.noData]⟩
  obtain ⟨rfl, rfl, hsc⟩ := BestPair.unique (best_congr costs (best_asked hask b2)) b1
  by_cases inn : InnerPoint 0 H sr half (a : Int) ∧ InnerPoint 0 W sc half (b : Int)
  · have f1 := innerPoint_fits inn.1
    have f2 := innerPoint_fits inn.2
    obtain ⟨d1, d2⟩ := flowPixel_seen hh hsz hres (fun a b a' b' v1 v2 v3 v4 => lucasKanade_local v1 v2 v3 v4)
      (left_seen ⟨z1, z1'⟩ (by omega) (by omega) fun x y _ _ u1 u2 u3 u4 => nearF.window x y u1 u2 u3 u4)
      (fun s t h1 h2 => right_seen rfl ⟨by omega, by omega⟩ ⟨z2, z2'⟩ fun x y hx hy u1 u2 u3 u4 => by
        obtain ⟨⟨t1, t2⟩, t3, t4⟩ := startShift_in b1 h1 h2
        exact nearF.searched x y hx hy (by omega) (by omega) (by omega) (by omega)) (p1 inn) (p2 inn)
    exact ⟨d1, d2, hsc⟩
  · obtain ⟨y1, y2⟩ := q1 inn
    obtain ⟨y3, y4⟩ := q2 inn
    exact ⟨y3.trans y1.symm, y4.trans y2.symm, hsc⟩

/-! ## Examples -/

/-- The sum of the products of the pairs of a list. -/
def dotOf (l : List (ℚ × ℚ)) : ℚ := (l.map fun p => p.1 * p.2).sum

/-- The values of the three columns of the equations, two by two. -/
def eqsOf (A : List (F ℚ × F ℚ)) (B : List (F ℚ)) : List ((ℚ × ℚ) × ℚ) := (A.zip B).map fun p => ((amount p.1.1, amount p.1.2), amount p.2)

/-- The solution of the normal equations. -/
def normalSolution (l : List ((ℚ × ℚ) × ℚ)) : Option (F ℚ × F ℚ) :=
  let xx := dotOf (l.map fun p => (p.1.1, p.1.1))
  let xy := dotOf (l.map fun p => (p.1.1, p.1.2))
  let yy := dotOf (l.map fun p => (p.1.2, p.1.2))
  let xt := dotOf (l.map fun p => (p.1.1, p.2))
  let yt := dotOf (l.map fun p => (p.1.2, p.2))
  if xx * yy - xy * xy = 0 then none
  else some (.fin ((yy * xt - xy * yt) / (xx * yy - xy * xy)), .fin ((xx * yt - xy * xt) / (xx * yy - xy * xy)))

/-- Least squares by the normal equations, and windows which are not resampled. -/
def exExt : Ext ℚ := ⟨fun A B => normalSolution (eqsOf A B), fun a _ _ => a⟩

theorem dotOf_scaled (k : ℚ) (l : List (ℚ × ℚ)) : dotOf (l.map (Prod.map (k * ·) (k * ·))) = k * k * dotOf l := by
  unfold dotOf
  rw [List.map_map, ← List.sum_map_mul_left]
  congr 1
  refine List.map_congr_left fun p _ => ?_
  simp only [Function.comp, Prod.map]
  ring

theorem normalSolution_scaled {k : ℚ} (hk : 0 < k) (l : List ((ℚ × ℚ) × ℚ)) :
    normalSolution (l.map fun p => ((k * p.1.1, k * p.1.2), k * p.2)) = normalSolution l := by
  have key : ∀ u v : (ℚ × ℚ) × ℚ → ℚ, (∀ p : (ℚ × ℚ) × ℚ, u ((k * p.1.1, k * p.1.2), k * p.2) = k * u p) →
      (∀ p : (ℚ × ℚ) × ℚ, v ((k * p.1.1, k * p.1.2), k * p.2) = k * v p) →
      dotOf ((l.map fun p => ((k * p.1.1, k * p.1.2), k * p.2)).map fun p => (u p, v p)) = k * k * dotOf (l.map fun p => (u p, v p)) := by
    intro u v hu hv
    rw [← dotOf_scaled, List.map_map, List.map_map]
    congr 1
    refine List.map_congr_left fun p _ => ?_
    simp only [Function.comp, Prod.map, hu, hv]
  unfold normalSolution
  rw [key (fun p => p.1.1) (fun p => p.1.1) (fun _ => rfl) (fun _ => rfl), key (fun p => p.1.1) (fun p => p.1.2) (fun _ => rfl) (fun _ => rfl),
    key (fun p => p.1.2) (fun p => p.1.2) (fun _ => rfl) (fun _ => rfl), key (fun p => p.1.1) (fun p => p.2) (fun _ => rfl) (fun _ => rfl),
    key (fun p => p.1.2) (fun p => p.2) (fun _ => rfl) (fun _ => rfl)]
  generalize dotOf (l.map fun p => (p.1.1, p.1.1)) = xx
  generalize dotOf (l.map fun p => (p.1.1, p.1.2)) = xy
  generalize dotOf (l.map fun p => (p.1.2, p.1.2)) = yy
  generalize dotOf (l.map fun p => (p.1.1, p.2)) = xt
  generalize dotOf (l.map fun p => (p.1.2, p.2)) = yt
  have hk4 : k * k * (k * k) ≠ 0 := by positivity
  have e : ∀ a b c d : ℚ, k * k * a * (k * k * b) - k * k * c * (k * k * d) = k * k * (k * k) * (a * b - c * d) := by intros; ring
  simp only [e, mul_eq_zero, hk4, false_or, mul_div_mul_left _ _ hk4]

theorem exExt_scaled {k : ℚ} (hk : 0 < k) : SolvesScaled exExt k := by
  intro A B
  have am : ∀ v : F ℚ, amount (F.mul (.fin k) v) = k * amount v := by
    intro v
    cases v <;> simp [F.mul, amount, hk, hk.ne']
  show normalSolution _ = normalSolution _
  rw [← normalSolution_scaled hk (eqsOf A B)]
  congr 1
  unfold eqsOf
  rw [List.zip_map, List.map_map, List.map_map]
  refine List.map_congr_left fun p _ => ?_
  simp only [Function.comp, Prod.map, am]

/-- Windows of three pixels compared by `sad`, on images of three rows and three columns given by their values. -/
noncomputable def exWorldG (fl fr : Nat → Nat → F ℚ) : World ℚ :=
  { exWorldOf 1 3 with
    cost := fun _ => Pandora.windowCost 1 sad
    files := { (exWorldOf 1 3).files with read := fun s roi =>
      let img := if isLeftSection s then exImgT fl else exImgT fr
      match roi with
      | none => .ok img
      | some R => .ok (cropImg img R) }
    run := { (exWorldOf 1 3).run with flow := exExt } }

theorem exWorldG_contract (fl fr : Nat → Nat → F ℚ) : RunContract (exWorldG fl fr) 3 3 := by
  obtain ⟨⟨d1, d2, d3, d4, d5⟩, ⟨p1, -⟩, k, r, a, o, i, s⟩ := exWorldOf_contract 1 3 (by decide)
  refine ⟨⟨d1, d2, d3, ?_, ?_⟩, ⟨p1, fun _ => windowCost_contract 1 sad sad_finite⟩, k, ?_, fun _ _ _ _ => rfl, o, i, s⟩
  · intro v img h
    simp only [exWorldG, Except.ok.injEq] at h
    subst h
    split_ifs <;> exact ⟨rfl, rfl, rfl, rfl⟩
  · intro v R img h h1 h2 h3
    simp only [exWorldG, Except.ok.injEq] at h
    subst h
    have key : ∀ i : Img ℚ, i.h = 3 → i.w = 3 → CropOk (cropImg i R) R 3 3 := by
      intro i hi hi'
      refine ⟨h1, h2, h3, rfl, rfl, ?_, ?_⟩
      · simp only [cropImg, hi]; push_cast at *; omega
      · simp only [cropImg, hi']; push_cast at *; omega
    split_ifs
    · exact key _ rfl rfl
    · exact key _ rfl rfl
  · intro inp l r _ _ _ roi _
    cases roi with
    | none => exact ⟨_, _, rfl, rfl⟩
    | some R => exact ⟨_, _, rfl, rfl⟩

/-- The optical flow of the examples, on full images. -/
abbrev exUserG : Fields := exUserWhole 1 1 (some exFlow) (some (.int 0))

theorem exUserG_wf : exUserG.wf := by
  simp [exUserG, exUserWhole, exInput, exPipeline, exFlow, dict, Fields.append, Fields.wf, J.wf, Fields.keys]

theorem exWorldG_runs (fl fr : Nat → Nat → F ℚ) : Main.main (exWorldG fl fr) exUserG = ((Main.main (exWorldG fl fr) exUserG).1, none) := by
  have : (Main.main (exWorldG fl fr) exUserG).2 = none := by
    obtain ⟨m, cfg, h⟩ := accepted_ok (w := exWorldOf 1 3) (user := exUserG) (by decide +kernel)
    refine C81_accepted_runs_partial (exWorldG fl fr) _ _ _ cfg m 3 3 0 2 0 2 1 1 exUserG_wf (exWorldG_contract fl fr) rfl (by decide) rfl
      (.inl ⟨_, _, rfl, .inl rfl, .inl rfl⟩) (.inr ⟨rfl, rfl, rfl, rfl, rfl⟩) (by decide) ?_ ?_ (.inl ⟨rfl, rfl⟩) h
    · intro he
      exact absurd rfl he
    · intro v hv
      have : v = exFlow := (Option.some.inj hv).symm
      subst this
      refine ⟨_, rfl, .inr (.inr ⟨rfl, .inl rfl, ?_⟩)⟩
      intro c st wn mar half hc hi
      have hw : wn = .int 3 := by
        have := congrArg (fun x => match x with | .ok (_, _, w, _) => w | .error _ => J.null) hc
        exact this.symm
      subst hw
      have : half = 1 := by
        rcases hi with hi | ⟨-, ⟨hi, -⟩ | ⟨hi, -⟩⟩
        · simp only [J.int.injEq] at hi; omega
        · simp at hi
        · simp at hi
      subst this
      exact ⟨⟨1, 2, by decide⟩, ⟨1, 2, by decide⟩⟩
  exact Prod.ext rfl this

theorem exWorldG_images (fl fr : Nat → Nat → F ℚ) (left right : Img ℚ) (h : ImagesRead (exWorldG fl fr) exL exR none left right) :
    left = exImgT fl ∧ right = exImgT fr := by
  obtain ⟨lj, rj, k1, k2, h1, h2⟩ := h
  have g1 := k1 "img" _ rfl rfl
  have g2 := k2 "img" _ rfl rfl
  simp only [exWorldG, Except.ok.injEq] at h1 h2
  have e1 : isLeftSection (.obj lj) = true := by simp [isLeftSection, g1, readValue]
  have e2 : isLeftSection (.obj rj) = false := by simp [isLeftSection, g2, readValue]
  rw [e1, if_pos rfl] at h1
  rw [e2, if_neg (by decide)] at h2
  exact ⟨h1.symm, h2.symm⟩

theorem exWorldG_flowed (fl fr : Nat → Nat → F ℚ) : ∃ p mc inp f, Flowed (exWorldG fl fr) exUserG p mc inp exL exR f 3 3 ⟨.const 0, 1⟩ ⟨.const 0, 1⟩
    1 1 .nan 1 1 .min sad 1 1 :=
  ⟨_, _, _, _, rfl, rfl, rfl, rfl, rfl, rfl, rfl, rfl, .inl ⟨_, rfl, .inl rfl⟩, rfl, ⟨_, _, _, _, rfl, .inl rfl⟩,
    ⟨_, _, _, _, _, .int 1, rfl, rfl, rfl, .inl rfl, rfl, rfl⟩,
    ⟨⟨_, rfl, ⟨_, _, _, rfl, rfl, rfl, .inl rfl, .inl ⟨_, .inl rfl, rfl⟩⟩, ⟨_, _, _, rfl, rfl, rfl, .inl rfl, .inl ⟨_, .inl rfl, rfl⟩⟩⟩,
    .inr ⟨rfl, rfl, rfl, rfl, rfl⟩,
    ⟨_, _, _, rfl, rfl, rfl, .inl ⟨_, _, rfl, .inl rfl, .inl rfl⟩, .inl ⟨_, rfl, .inr (.inr (.inl ⟨rfl, rfl⟩))⟩⟩⟩⟩

/-- Whatever the two images, with another contrast and another brightness of both. -/
example (fl fr : Nat → Nat → F ℚ) : ∃ files rest files' rest',
    Main.main (exWorldG fl fr) exUserG = (.rasters files :: rest, none) ∧
    Main.main (exWorldG (fun x y => affine 2 1 (fl x y)) (fun x y => affine 2 1 (fr x y))) exUserG = (.rasters files' :: rest', none) ∧
    ∀ i < 3, ∀ j < 3, files'.row.values i j = files.row.values i j ∧ files'.col.values i j = files.col.values i j := by
  obtain ⟨p, mc, inp, f, cfg⟩ := exWorldG_flowed fl fr
  obtain ⟨p', mc', inp', f', cfg'⟩ := exWorldG_flowed (fun x y => affine 2 1 (fl x y)) (fun x y => affine 2 1 (fr x y))
  have r := exWorldG_runs fl fr
  have r' := exWorldG_runs (fun x y => affine 2 1 (fl x y)) (fun x y => affine 2 1 (fr x y))
  have ct := exWorldG_contract fl fr
  have ct' := exWorldG_contract (fun x y => affine 2 1 (fl x y)) (fun x y => affine 2 1 (fr x y))
  have inj : ∀ v : F ℚ, affine 2 1 v = affine 2 1 (.fin (-1)) → v = .fin (-1) := by
    intro v h
    cases v <;> simp [affine, F.mul, F.add] at h ⊢
    linarith
  have reg : ∀ f : Nat → Nat → F ℚ, Regraded (affine 2 1) (exImgT f) (exImgT fun x y => affine 2 1 (f x y)) := fun f =>
    ⟨by simp [exImgT, exLeftImg, affine, F.mul, F.add]; norm_num, fun _ _ _ _ => rfl, fun x _ y _ h => inj _ h, fun _ _ _ _ => rfl,
      fun _ _ _ _ => rfl⟩
  obtain ⟨files, rest, files', rest', o, o', z, z', key⟩ := C127_brightness_flow _ _ _ _ _ _ _ _ _ _ _ _ _ _ _ _ _ _ 3 3
    _ _ _ _ 1 1 _ 1 1 .min sad 1 1 2 1 (F.mul (.fin 2))
    exUserG_wf exUserG_wf ct.disk ct.pandora ct.keeps ct.offset rfl ct'.disk ct'.pandora ct'.keeps ct'.offset rfl
    cfg cfg' rfl (by norm_num) (sad_affine 1 (by norm_num)) (fun _ _ _ => ⟨rfl, rfl⟩) (fun _ _ _ _ h => h) (exExt_scaled (by norm_num))
    (fun left right left' right' h h' => by
      obtain ⟨rfl, rfl⟩ := exWorldG_images _ _ _ _ h
      obtain ⟨rfl, rfl⟩ := exWorldG_images _ _ _ _ h'
      exact ⟨reg fl, reg fr⟩) (fun _ _ _ _ => ⟨rfl, rfl⟩) (fun _ _ _ _ => ⟨rfl, rfl⟩) r r'
  have b := z _ List.mem_cons_self
  refine ⟨files, rest, files', rest', by rw [r]; exact congrArg (·, none) o, by rw [r']; exact congrArg (·, none) o', fun i hi j hj => ?_⟩
  obtain ⟨k1, k2, -⟩ := key i ((b.1 i).2 (by omega)) j ((b.2 j).2 (by omega))
  exact ⟨k1, k2⟩

/-- Two pairs of images which differ anywhere but in the three first rows and columns. -/
example (fl fr fl' fr' : Nat → Nat → F ℚ) (hl : ∀ x < 3, ∀ y < 3, fl' x y = fl x y) (hr : ∀ x < 3, ∀ y < 3, fr' x y = fr x y) :
    ∃ files rest files' rest', Main.main (exWorldG fl fr) exUserG = (.rasters files :: rest, none) ∧
    Main.main (exWorldG fl' fr') exUserG = (.rasters files' :: rest', none) ∧
    files'.row.values 1 1 = files.row.values 1 1 ∧ files'.col.values 1 1 = files.col.values 1 1 ∧
      files'.score.values 1 1 = files.score.values 1 1 := by
  obtain ⟨p, mc, inp, f, cfg⟩ := exWorldG_flowed fl fr
  obtain ⟨p', mc', inp', f', cfg'⟩ := exWorldG_flowed fl' fr'
  have r := exWorldG_runs fl fr
  have r' := exWorldG_runs fl' fr'
  have ct := exWorldG_contract fl fr
  have ct' := exWorldG_contract fl' fr'
  obtain ⟨files, rest, files', rest', left, right, left', right', o, o', im, im', z, z', key⟩ :=
    C128_local_flow _ _ _ _ _ _ _ _ _ _ _ _ _ _ _ _ _ _ 3 3 _ _ _ _ 1 1 _ 1 1 .min sad 1 1
    exUserG_wf exUserG_wf ct.disk ct.pandora ct.keeps ct.offset rfl ct'.disk ct'.pandora ct'.keeps ct'.offset rfl
    cfg cfg' rfl (fun _ _ _ => ⟨rfl, rfl⟩) (fun _ _ _ _ h => h) r r'
  obtain ⟨rfl, rfl⟩ := exWorldG_images _ _ _ _ im
  obtain ⟨rfl, rfl⟩ := exWorldG_images _ _ _ _ im'
  have b := z _ List.mem_cons_self
  refine ⟨files, rest, files', rest', by rw [r]; exact congrArg (·, none) o, by rw [r']; exact congrArg (·, none) o', ?_⟩
  refine key 1 1 1 1 ((b.1 1).2 (by decide)) ((b.2 1).2 (by decide)) rfl rfl ⟨rfl, rfl⟩ ⟨rfl, rfl⟩
    ⟨fun x y _ _ _ _ => ⟨hl x (by omega) y (by omega), rfl⟩, rfl, rfl, fun x y hx hy _ _ _ _ => hr x hx y hy⟩
    ⟨fun x y _ _ _ _ => hl x (by omega) y (by omega), fun x y hx hy _ _ _ _ => hr x hx y hy⟩

end Verif.Props
