import Verif.Props.FlowInvalid
import Verif.Props.FlowIterations

/-!
# C159: invalid values far from the intervals, with an optical flow
-/

namespace Verif.Props

open Verif Verif.Config Verif.Machine Verif.ImgTools Verif.MatchingCost Verif.Disparity Verif.Run Verif.Main Verif.Spec Verif.Save
  Verif.Statistics Verif.OpticalFlow

set_option linter.unusedSectionVars false

variable {K : Type} [Field K] [LinearOrder K] [IsStrictOrderedRing K] [FloorRing K]

/-- NaN, or a number at least `n` away from the interval. -/
def Outside (n : Nat) (lo hi : Int) (v : F K) : Prop := v = .nan ∨ ∃ k, v = .fin k ∧ (k + n ≤ lo ∨ (hi : K) + n ≤ k)

theorem outside_not {n : Nat} {lo hi : Int} {v : F K} (h : Outside n lo hi v) (hn : 1 ≤ n) {x : K} (h1 : (lo : K) ≤ x) (h2 : x ≤ (hi : K)) : v ≠ .fin x := by
  have hn : (1 : K) ≤ (n : K) := by exact_mod_cast hn
  rcases h with rfl | ⟨k, rfl, h⟩
  · simp
  · intro q
    rw [F.fin.injEq] at q
    rcases h with h | h <;> linarith

/-- Two numbers, or twice NaN. -/
def BothNumbers (a b : F K) : Prop := (a = .nan ∧ b = .nan) ∨ ∃ x y, a = .fin x ∧ b = .fin y

theorem both_sub {a b : F K} (h : BothNumbers a b) {m : F K} (hm : m = .nan ∨ ∃ k, m = .fin k) : BothNumbers (fsub a m) (fsub b m) := by
  rcases hm with rfl | ⟨k, rfl⟩ <;> rcases h with ⟨rfl, rfl⟩ | ⟨x, y, rfl, rfl⟩
  · exact .inl ⟨rfl, rfl⟩
  · exact .inl ⟨rfl, rfl⟩
  · exact .inl ⟨rfl, rfl⟩
  · exact .inr ⟨_, _, rfl, rfl⟩

theorem clip_number (m : F K) : clip m = .nan ∨ ∃ k, clip m = .fin k := by
  by_cases h : m = .nan
  · subst h
    exact .inl (by simp [clip, fabs, F.lt])
  · exact .inr (clip_fin m h)

theorem small_number {m : F K} (h : F.lt (fabs m) (.fin 1)) : m = .nan ∨ ∃ k, m = .fin k := by
  cases m with
  | nan => exact .inl rfl
  | fin k => exact .inr ⟨k, rfl⟩
  | _ => simp [fabs, F.lt] at h

/-- Whether a trajectory ends with a number does not depend on the number it starts from. -/
theorem trajectory_both {flow : Win K → Win K → F K × F K} {warp : Win K → F K → F K → Win K} {left : Win K} (n : Nat) (w : Win K) (d e : F K × F K) :
    (BothNumbers d.1 e.1 → BothNumbers (trajectory flow warp left n w d).1 (trajectory flow warp left n w e).1) ∧
      (BothNumbers d.2 e.2 → BothNumbers (trajectory flow warp left n w d).2 (trajectory flow warp left n w e).2) := by
  induction n generalizing w d e with
  | zero => exact ⟨id, id⟩
  | succ n ih =>
    unfold trajectory
    dsimp only
    split_ifs with h
    · obtain ⟨i1, i2⟩ := ih (warp w (flow left w).1 (flow left w).2) (fsub d.1 (flow left w).1, fsub d.2 (flow left w).2)
        (fsub e.1 (flow left w).1, fsub e.2 (flow left w).2)
      exact ⟨fun q => i1 (both_sub q (small_number h.1)), fun q => i2 (both_sub q (small_number h.2))⟩
    · exact ⟨fun q => both_sub q (clip_number _), fun q => both_sub q (clip_number _)⟩

/-- The ends of two trajectories which start from two invalid values far from the interval. -/
theorem outside_marked {n : Nat} {lo hi : Int} {invalid invalid' t t' : F K} (h : Outside n lo hi invalid) (h' : Outside n lo hi invalid')
    (nan : invalid = .nan → t = .nan) (nan' : invalid' = .nan → t' = .nan)
    (near : ∀ x, invalid = .fin x → CloseTo n x t) (near' : ∀ x, invalid' = .fin x → CloseTo n x t')
    (both : BothNumbers invalid invalid' → BothNumbers t t') :
    Marked invalid invalid' (insideOr invalid lo hi t) (insideOr invalid' lo hi t') := by
  have gone : ∀ v : F K, insideOr v lo hi .nan = .nan := fun v => by simp [insideOr, F.le]
  have far : ∀ {v t : F K} {k x : K}, v = .fin k → k + n ≤ lo ∨ (hi : K) + n ≤ k → t = .fin x → |x - k| ≤ n → insideOr v lo hi t = v := by
    intro v t k x _ h e hx
    refine insideOr_far (n := n) (v := k) ?_ ⟨x, e, hx⟩
    rcases h with h | h
    · exact .inl h
    · exact .inr (by linarith)
  rcases h with e | ⟨k, e, h⟩ <;> rcases h' with e' | ⟨k', e', h'⟩
  · rw [nan e, nan' e', gone, gone]
    exact .inl rfl
  · rw [nan e, gone]
    rcases near' k' e' with q | ⟨x, q, hx⟩
    · rw [q, gone]
      exact .inl rfl
    · exact .inr ⟨e.symm, far e' h' q hx⟩
  · rw [nan' e', gone]
    rcases near k e with q | ⟨x, q, hx⟩
    · rw [q, gone]
      exact .inl rfl
    · exact .inr ⟨far e h q hx, e'.symm⟩
  · rcases both (.inr ⟨k, k', e, e'⟩) with ⟨q, q'⟩ | ⟨x, x', q, q'⟩
    · rw [q, q', gone, gone]
      exact .inl rfl
    · obtain ⟨y, r, hy⟩ := (near k e).resolve_left (by rw [q]; simp)
      obtain ⟨y', r', hy'⟩ := (near' k' e').resolve_left (by rw [q']; simp)
      exact .inr ⟨far e h r hy, far e' h' r' hy'⟩

/-- C159, with invalid values far from the intervals. Two executions as in `C159_invalid_flow_partial`, with one iteration at least: at every pixel, with a
score or not, for which the least squares give a motion and whose intervals are at least as far from the invalid values as there are iterations (or the invalid
value is NaN), the scores, the row disparities and the column disparities are the same, or each is its invalid value. -/
theorem C159_far_flow_partial (w : World K) (user user' p p' mc mc' inp inp' l r f f' : Fields) (out out' : List (Written K))
    (H W : Nat) (dRow dCol : Disp) (sr sc : Nat) (invalid invalid' : F K) (n hw : Nat) (me : Measure) (ker : List (F K × F K) → F K) (it half : Nat)
    (wf : user.wf) (wf' : user'.wf)
    (hdisk : DiskContract w H W) (hpan : PandoraContract w) (hkeeps : PandoraKeeps w.pandora) (hoff : OffsetContract w) (hit : 1 ≤ it)
    (cfg : Flowed w user p mc inp l r f H W dRow dCol sr sc invalid n hw me ker it half)
    (cfg' : Flowed w user' p' mc' inp' l r f' H W dRow dCol sr sc invalid' n hw me ker it half)
    (h : Main.main w user = (out, none)) (h' : Main.main w user' = (out', none)) :
    ∃ files rest files' rest' left right, out = .rasters files :: rest ∧ out' = .rasters files' :: rest' ∧ ImagesRead w l r none left right ∧
      (∀ f ∈ [files.row, files.col, files.score], (∀ i, i < f.h ↔ i * sr < H) ∧ ∀ j, j < f.w ↔ j * sc < W) ∧
      (∀ f ∈ [files'.row, files'.col, files'.score], (∀ i, i < f.h ↔ i * sr < H) ∧ ∀ j, j < f.w ↔ j * sc < W) ∧
      ∀ i j a b : Nat, a = i * sr → b = j * sc → a < H → b < W → Solvable w.run.flow (windowOf left half a b) →
        (∀ v ∈ [invalid, invalid'], Outside it (initAt dRow a b - dRow.range) (initAt dRow a b + dRow.range) v ∧
          Outside it (initAt dCol a b - dCol.range) (initAt dCol a b + dCol.range) v) →
        Marked invalid invalid' (files.score.values i j) (files'.score.values i j) ∧
          Marked invalid invalid' (files.row.values i j) (files'.row.values i j) ∧
          Marked invalid invalid' (files.col.values i j) (files'.col.values i j) := by
  obtain ⟨s⟩ := flowed_stages cfg wf hpan h
  obtain ⟨s'⟩ := flowed_stages cfg' wf' hpan h'
  obtain ⟨-, im, -, -, z, key⟩ := s.flowRasters cfg wf hdisk hkeeps hoff
  obtain ⟨-, im', -, -, z', key'⟩ := s'.flowRasters cfg' wf' hdisk hkeeps hoff
  obtain ⟨er, el⟩ := s.flow_images s' cfg cfg' wf wf'
  rw [er, el] at key'
  refine ⟨s.files, _, s'.files, _, s.left.img, s.right.img, s.outIs, s'.outIs, im, z, z', fun i j a b ea eb ha hb hs hfar => ?_⟩
  obtain ⟨gmin, gmax, g, r0, c0, b1, p1, q1⟩ :=
    key i (((z _ List.mem_cons_self).1 i).2 (by omega)) j (((z _ List.mem_cons_self).2 j).2 (by omega))
  obtain ⟨gmin', gmax', g', r1, c1, b2, p2, q2⟩ :=
    key' i (((z' _ List.mem_cons_self).1 i).2 (by omega)) j (((z' _ List.mem_cons_self).2 j).2 (by omega))
  rw [← ea, ← eb] at g b1 p1 q1 g' b2 p2 q2
  have costs : ∀ x y, AskedPair dRow dCol n (a : Int) (b : Int) x y →
      Pandora.windowCost hw ker s.left.img (slabImg w.run.zoom s.right.img n x) gmin' gmax' a b y =
      Pandora.windowCost hw ker s.left.img (slabImg w.run.zoom s.right.img n x) gmin gmax a b y := fun x y q =>
    (free_window (moved := slabImg w.run.zoom s.right.img n) (g' y q.2.2.1 q.2.2.2)).trans (free_window (g y q.2.2.1 q.2.2.2)).symm
  have b2 := best_congr costs b2
  obtain ⟨fr, fc⟩ := hfar invalid (by simp)
  obtain ⟨fr', fc'⟩ := hfar invalid' (by simp)
  by_cases hex : ∃ x y, AskedPair dRow dCol n (a : Int) (b : Int) x y ∧
      Pandora.windowCost hw ker s.left.img (slabImg w.run.zoom s.right.img n x) gmin gmax a b y ≠ .nan
  · obtain ⟨rfl, rfl, e3⟩ := BestPair.unique b1 (invalid := invalid) ⟨fun q => by
      obtain ⟨x, y, t1, t2⟩ := hex
      exact absurd (q x y t1) t2, b2.best, b2.smallest⟩
    refine ⟨.inl e3.symm, ?_⟩
    obtain ⟨x, y, rfl, rfl, ⟨_, ⟨-, ⟨x1, x2⟩, -⟩, -⟩, ⟨_, ⟨-, -, y1, y2⟩, -⟩, -⟩ := b1.smallest hex
    by_cases hi : InnerPoint 0 H sr half (a : Int) ∧ InnerPoint 0 W sc half (b : Int)
    · obtain ⟨u, v, k1, k2, t, k3, k4, k5⟩ := p1 hi
      obtain ⟨u', v', k1', k2', t', k3', k4', k5'⟩ := p2 hi
      obtain rfl := startShift_unique (startShift_other k1 (outside_not fr hit x1 x2) (outside_not fr' hit x1 x2)) k1'
      obtain rfl := startShift_unique (startShift_other k2 (outside_not fc hit y1 y2) (outside_not fc' hit y1 y2)) k2'
      rw [trajectory_solvable hs invalid invalid', ← k3] at k3'
      rw [k4, k5, k4', k5', k3']
      exact ⟨insideOr_marked _ _ _ _ _, insideOr_marked _ _ _ _ _⟩
    · exact ⟨.inr ⟨(q1 hi).1, (q2 hi).1⟩, .inr ⟨(q1 hi).2, (q2 hi).2⟩⟩
  · have hex : ∀ x y, AskedPair dRow dCol n (a : Int) (b : Int) x y →
        Pandora.windowCost hw ker s.left.img (slabImg w.run.zoom s.right.img n x) gmin gmax a b y = .nan := fun x y q => by
      by_contra hc
      exact hex ⟨x, y, q, hc⟩
    obtain ⟨w1, w2, e1⟩ := b1.invalid hex
    obtain ⟨w3, w4, e2⟩ := b2.invalid hex
    rw [w1, w2] at p1
    rw [w3, w4] at p2
    refine ⟨.inr ⟨e1, e2⟩, ?_⟩
    by_cases hi : InnerPoint 0 H sr half (a : Int) ∧ InnerPoint 0 W sc half (b : Int)
    · obtain ⟨u, v, k1, k2, t, k3, k4, k5⟩ := p1 hi
      obtain ⟨u', v', k1', k2', t', k3', k4', k5'⟩ := p2 hi
      have zero : ∀ (v : F K), StartShift v v 0 := fun v => .inl ⟨rfl, .inr rfl⟩
      obtain rfl := startShift_unique k1 (zero _)
      obtain rfl := startShift_unique k2 (zero _)
      obtain rfl := startShift_unique k1' (zero _)
      obtain rfl := startShift_unique k2' (zero _)
      rw [trajectory_solvable hs invalid invalid'] at k3'
      subst k3 k3'
      obtain ⟨m1, m2⟩ := trajectory_nan (lucasKanade w.run.flow invalid) w.run.flow.warp (windowOf s.left.img half a b) it
        (rightWindow s.right.img half (a + 0) (b + 0)) (invalid, invalid)
      obtain ⟨m1', m2'⟩ := trajectory_nan (lucasKanade w.run.flow invalid) w.run.flow.warp (windowOf s.left.img half a b) it
        (rightWindow s.right.img half (a + 0) (b + 0)) (invalid', invalid')
      obtain ⟨n1, n2⟩ := trajectory_close (flow := lucasKanade w.run.flow invalid) (warp := w.run.flow.warp) (left := windowOf s.left.img half a b) it
        (rightWindow s.right.img half (a + 0) (b + 0)) (invalid, invalid)
      obtain ⟨n1', n2'⟩ := trajectory_close (flow := lucasKanade w.run.flow invalid) (warp := w.run.flow.warp) (left := windowOf s.left.img half a b) it
        (rightWindow s.right.img half (a + 0) (b + 0)) (invalid', invalid')
      obtain ⟨t1, t2⟩ := trajectory_both (flow := lucasKanade w.run.flow invalid) (warp := w.run.flow.warp) (left := windowOf s.left.img half a b) it
        (rightWindow s.right.img half (a + 0) (b + 0)) (invalid, invalid) (invalid', invalid')
      rw [k4, k5, k4', k5']
      exact ⟨outside_marked fr fr' m1 m1' n1 n1' t1, outside_marked fc fc' m2 m2' n2 n2' t2⟩
    · exact ⟨.inr ⟨(q1 hi).1, (q2 hi).1⟩, .inr ⟨(q1 hi).2, (q2 hi).2⟩⟩

/-- Whatever the right image: with the invalid values 4 and -9999, one at least away from the disparities from -3 to 3, and one iteration, the pixel of
row 2 and column 3 has the same three values, or the invalid values. -/
example (g : Nat → Nat → F ℚ) : ∃ files rest files' rest',
    Main.main (exWorldImgs (exImgSix exBump) (exImgSix g)) (exUserFlowMark 4) = (.rasters files :: rest, none) ∧
    Main.main (exWorldImgs (exImgSix exBump) (exImgSix g)) (exUserFlowMark (-9999)) = (.rasters files' :: rest', none) ∧
    Marked (.fin 4) (.fin (-9999)) (files.score.values 2 3) (files'.score.values 2 3) ∧
      Marked (.fin 4) (.fin (-9999)) (files.row.values 2 3) (files'.row.values 2 3) ∧
      Marked (.fin 4) (.fin (-9999)) (files.col.values 2 3) (files'.col.values 2 3) := by
  have sz : ∀ g, exSized (exImgSix g) := fun g => ⟨⟨rfl, rfl⟩, rfl, rfl⟩
  obtain ⟨_, _, _, _, cfg⟩ := exFlowMark_cfg (exImgSix exBump) (exImgSix g) 4
  obtain ⟨_, _, _, _, cfg'⟩ := exFlowMark_cfg (exImgSix exBump) (exImgSix g) (-9999)
  have ct := exWorldImgs_contract (sz exBump) (sz g)
  have h1 := exFlowMark_runs (sz exBump) (sz g) 4 (by decide +kernel)
  have h2 := exFlowMark_runs (sz exBump) (sz g) (-9999) (by decide +kernel)
  obtain ⟨files, rest, files', rest', left, right, o, o', i, -, -, key⟩ := C159_far_flow_partial _ _ _ _ _ _ _ _ _ _ _ _ _ _ _ 6 6
    _ _ _ _ _ _ _ _ _ _ _ _ (exUserFlowMark_wf _) (exUserFlowMark_wf _) ct.disk ct.pandora ct.keeps ct.offset (by decide) cfg cfg' h1 h2
  obtain ⟨rfl, rfl⟩ := exWorldImgs_images i
  have e1 : (.fin ((4 : Int) : ℚ) : F ℚ) = .fin 4 := by norm_num
  have e2 : (.fin ((-9999 : Int) : ℚ) : F ℚ) = .fin (-9999) := by norm_num
  rw [e1, e2] at key
  refine ⟨files, rest, files', rest', by rw [h1]; exact congrArg (·, none) o, by rw [h2]; exact congrArg (·, none) o',
    key 2 3 2 3 (by decide) (by decide) (by decide) (by decide) ?_ ?_⟩
  · have hflow : (exWorldImgs (exImgSix exBump) (exImgSix g)).run.flow = exExt := rfl
    rw [hflow]
    exact exExt_solvable (by decide +kernel)
  · have far : ∀ v ∈ [(.fin 4 : F ℚ), .fin (-9999)], Outside 1 (0 - 3) (0 + 3) v := by
      intro v hv
      simp only [List.mem_cons, List.not_mem_nil, or_false] at hv
      rcases hv with rfl | rfl
      · exact .inr ⟨_, rfl, .inr (by norm_num)⟩
      · exact .inr ⟨_, rfl, .inl (by norm_num)⟩
    exact fun v hv => ⟨far v hv, far v hv⟩

end Verif.Props
