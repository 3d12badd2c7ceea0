import Verif.Props.FlowWider
import Verif.Spec.FlowIterations

/-!
# C142: more iterations of the optical flow
-/

namespace Verif.Props

open Verif Verif.Config Verif.Machine Verif.ImgTools Verif.MatchingCost Verif.Disparity Verif.Run Verif.Main Verif.Spec Verif.Save
  Verif.OpticalFlow

set_option linter.unusedSectionVars false

variable {K : Type} [Field K] [LinearOrder K] [IsStrictOrderedRing K] [FloorRing K]

theorem close_fin {n : Nat} {x y : K} {t : F K} (h : CloseTo n x t) (e : t = .fin y) : |y - x| ≤ (n : K) := by
  rcases h with h | ⟨k, h, hk⟩
  · rw [e] at h; simp at h
  · rw [e, F.fin.injEq] at h
    rw [h]; exact hk

/-- A trajectory of `m` iterations stays at most `m` away from its start, on each axis. -/
theorem trajectory_close {flow : Win K → Win K → F K × F K} {warp : Win K → F K → F K → Win K} {left : Win K} (m : Nat) (w : Win K) (d : F K × F K) :
    (∀ x, d.1 = .fin x → CloseTo m x (trajectory flow warp left m w d).1) ∧ ∀ x, d.2 = .fin x → CloseTo m x (trajectory flow warp left m w d).2 := by
  induction m generalizing w d with
  | zero => exact ⟨fun x h => .inr ⟨x, h, by simp⟩, fun x h => .inr ⟨x, h, by simp⟩⟩
  | succ m ih =>
    unfold trajectory
    dsimp only
    split_ifs with h
    · obtain ⟨i1, i2⟩ := ih (warp w (flow left w).1 (flow left w).2) (fsub d.1 (flow left w).1, fsub d.2 (flow left w).2)
      constructor
      · intro x e
        obtain ⟨k, e', a⟩ := small_motion (y := x) h.1
        exact close_step (i1 k (by dsimp only; rw [e, e'])) a
      · intro x e
        obtain ⟨k, e', a⟩ := small_motion (y := x) h.2
        exact close_step (i2 k (by dsimp only; rw [e, e'])) a
    · constructor
      · intro x e
        rw [e]
        exact (clipped_motion x _).mono
      · intro x e
        rw [e]
        exact (clipped_motion x _).mono

/-- With `m` more iterations, the end of a trajectory moves by at most `m`, and stays NaN if it is. -/
theorem trajectory_more {flow : Win K → Win K → F K × F K} {warp : Win K → F K → F K → Win K} {left : Win K} (n m : Nat) (w : Win K) (d : F K × F K) :
    ((∀ x, (trajectory flow warp left n w d).1 = .fin x → CloseTo m x (trajectory flow warp left (n + m) w d).1) ∧
      ((trajectory flow warp left n w d).1 = .nan → (trajectory flow warp left (n + m) w d).1 = .nan)) ∧
    (∀ x, (trajectory flow warp left n w d).2 = .fin x → CloseTo m x (trajectory flow warp left (n + m) w d).2) ∧
      ((trajectory flow warp left n w d).2 = .nan → (trajectory flow warp left (n + m) w d).2 = .nan) := by
  induction n generalizing w d with
  | zero =>
    rw [Nat.zero_add]
    obtain ⟨h1, h2⟩ := trajectory_close (flow := flow) (warp := warp) (left := left) m w d
    obtain ⟨h3, h4⟩ := trajectory_nan flow warp left m w d
    exact ⟨⟨h1, h3⟩, h2, h4⟩
  | succ n ih =>
    have e : n + 1 + m = (n + m) + 1 := by omega
    rw [e]
    unfold trajectory
    dsimp only
    split_ifs with h
    · exact ih _ _
    · have stay : ∀ (x : K) (t : F K), t = .fin x → CloseTo m x t := fun x t e => .inr ⟨x, e, by simp⟩
      exact ⟨⟨fun x => stay x _, id⟩, fun x => stay x _, id⟩

/-- The ends of two trajectories, kept in the same interval. -/
theorem inside_more {m : Nat} {lo hi : Int} {invalid t t' : F K} (h1 : ∀ x, t = .fin x → CloseTo m x t') (h2 : t = .nan → t' = .nan) :
    MovedByAtMost m invalid (insideOr invalid lo hi t) (insideOr invalid lo hi t') := by
  constructor
  · intro x y e e' n n'
    rcases insideOr_cases (invalid := invalid) lo hi t with q | q
    · exact absurd q n
    rcases insideOr_cases (invalid := invalid) lo hi t' with q' | q'
    · exact absurd q' n'
    rw [q] at e
    rw [q'] at e'
    exact close_fin (h1 x e) e'
  · intro e n
    rcases insideOr_cases (invalid := invalid) lo hi t with q | q
    · exact absurd q n
    rw [q] at e
    rw [h2 e]
    simp [insideOr, F.le]

/-- C142: more iterations of the optical flow. Two successful executions on the same full images, without estimation, with the same steps, subpixel
factor, window cost, intervals, invalid value and half window, the second one with `m` more iterations. At each pixel the score is the same, and each
refined disparity moves by at most `m` pixels when it is a number in both; where the flow has no solution, it has none with more iterations. -/
theorem C142_more_iterations_flow (w : World K) (user user' p p' mc mc' inp inp' l r f f' : Fields) (out out' : List (Written K))
    (H W : Nat) (dRow dCol : Disp) (sr sc : Nat) (invalid : F K) (n hw : Nat) (me : Measure) (ker : List (F K × F K) → F K) (it m half : Nat)
    (wf : user.wf) (wf' : user'.wf)
    (hdisk : DiskContract w H W) (hpan : PandoraContract w) (hkeeps : PandoraKeeps w.pandora) (hoff : OffsetContract w)
    (cfg : Flowed w user p mc inp l r f H W dRow dCol sr sc invalid n hw me ker it half)
    (cfg' : Flowed w user' p' mc' inp' l r f' H W dRow dCol sr sc invalid n hw me ker (it + m) half)
    (h : Main.main w user = (out, none)) (h' : Main.main w user' = (out', none)) :
    ∃ files rest files' rest', out = .rasters files :: rest ∧ out' = .rasters files' :: rest' ∧
      (∀ f ∈ [files.row, files.col, files.score], (∀ i, i < f.h ↔ i * sr < H) ∧ ∀ j, j < f.w ↔ j * sc < W) ∧
      (∀ f ∈ [files'.row, files'.col, files'.score], (∀ i, i < f.h ↔ i * sr < H) ∧ ∀ j, j < f.w ↔ j * sc < W) ∧
      ∀ i < files.row.h, ∀ j < files.row.w, files'.score.values i j = files.score.values i j ∧
        MovedByAtMost m invalid (files.row.values i j) (files'.row.values i j) ∧ MovedByAtMost m invalid (files.col.values i j) (files'.col.values i j) := by
  obtain ⟨s⟩ := flowed_stages cfg wf hpan h
  obtain ⟨s'⟩ := flowed_stages cfg' wf' hpan h'
  obtain ⟨-, im, -, -, z, key⟩ := s.flowRasters cfg wf hdisk hkeeps hoff
  obtain ⟨-, im', -, -, z', key'⟩ := s'.flowRasters cfg' wf' hdisk hkeeps hoff
  obtain ⟨er, el⟩ := s.flow_images s' cfg cfg' wf wf'
  rw [er, el] at key'
  refine ⟨s.files, _, s'.files, _, s.outIs, s'.outIs, z, z', fun i hi j hj => ?_⟩
  have bi : i * sr < H := ((z _ List.mem_cons_self).1 i).1 hi
  have bj : j * sc < W := ((z _ List.mem_cons_self).2 j).1 hj
  obtain ⟨gmin, gmax, g, r0, c0, b1, p1, q1⟩ := key i hi j hj
  obtain ⟨gmin', gmax', g', r1, c1, b2, p2, q2⟩ := key' i (((z' _ List.mem_cons_self).1 i).2 bi) j (((z' _ List.mem_cons_self).2 j).2 bj)
  generalize i * sr = a at *
  generalize j * sc = b at *
  obtain ⟨rfl, rfl, e3⟩ := BestPair.unique (best_congr (fun x y q => cost_wider (g y q.2.2.1 q.2.2.2) (g' y q.2.2.1 q.2.2.2)) b1) b2
  refine ⟨e3.symm, ?_⟩
  by_cases hi : InnerPoint 0 H sr half (a : Int) ∧ InnerPoint 0 W sc half (b : Int)
  · obtain ⟨u, v, k1, k2, t, k3, k4, k5⟩ := p1 hi
    obtain ⟨u', v', k1', k2', t', k3', k4', k5'⟩ := p2 hi
    obtain rfl := startShift_unique k1 k1'
    obtain rfl := startShift_unique k2 k2'
    obtain ⟨⟨m1, m2⟩, m3, m4⟩ := trajectory_more (flow := OpticalFlow.lucasKanade w.run.flow invalid) (warp := w.run.flow.warp)
      (left := windowOf s.left.img half a b) it m (rightWindow s.right.img half (a + u) (b + v)) (r0, c0)
    rw [← k3, ← k3'] at m1 m2 m3 m4
    rw [k4, k5, k4', k5']
    exact ⟨inside_more m1 m2, inside_more m3 m4⟩
  · obtain ⟨k1, k2⟩ := q1 hi
    obtain ⟨k1', k2'⟩ := q2 hi
    rw [k1, k2, k1', k2']
    exact ⟨⟨fun _ _ _ _ h => absurd rfl h, fun _ h => absurd rfl h⟩, fun _ _ _ _ h => absurd rfl h, fun _ h => absurd rfl h⟩

/-! ### Non-vacuity -/

/-- The full images with an optical flow of `k` iterations. -/
def exUserFlowTimes (k : Int) : Fields := dict [("input", .obj (exInputBox 0 2)),
  ("pipeline", .obj (exPipeline none 1 1 (some (.obj (dict [("refinement_method", .str "optical_flow"), ("iterations", .int k)])))))]

theorem exUserFlowTimes_wf (k : Int) : (exUserFlowTimes k).wf := by
  simp [exUserFlowTimes, exInputBox, exL, exR, exPipeline, dict, Fields.append, Fields.wf, J.wf, Fields.keys]

theorem exTimes_flowed (l r : Img ℚ) (k : Nat) :
    ∃ p mc inp f, Flowed (exWorldImgs l r) (exUserFlowTimes k) p mc inp exL exR f 6 6 ⟨.const 0, 2⟩ ⟨.const 0, 2⟩ 1 1 .nan 1 1 .min sad k 1 :=
  ⟨_, _, _, _, rfl, rfl, rfl, rfl, rfl, rfl, rfl, rfl, .inl ⟨_, rfl, .inl rfl⟩, rfl, ⟨_, _, _, _, rfl, .inl rfl⟩,
    ⟨_, _, _, _, _, .int 1, rfl, rfl, rfl, .inl rfl, rfl, rfl⟩,
    ⟨⟨_, rfl, ⟨_, _, _, rfl, rfl, rfl, .inl rfl, .inl ⟨_, .inl rfl, rfl⟩⟩, ⟨_, _, _, rfl, rfl, rfl, .inl rfl, .inl ⟨_, .inl rfl, rfl⟩⟩⟩,
    .inr ⟨rfl, rfl, rfl, rfl, rfl⟩,
    ⟨_, _, _, rfl, rfl, rfl, .inl ⟨_, _, rfl, .inl rfl, .inl rfl⟩, .inl ⟨_, rfl, .inr (.inr (.inl ⟨rfl, rfl⟩))⟩⟩⟩⟩

theorem exTimes_runs {l r : Img ℚ} (hl : exSized l) (hr : exSized r) (k : Int) (hacc : accepted exWorldSixF (exUserFlowTimes k) = true) :
    Main.main (exWorldImgs l r) (exUserFlowTimes k) = ((Main.main (exWorldImgs l r) (exUserFlowTimes k)).1, none) := by
  have : (Main.main (exWorldImgs l r) (exUserFlowTimes k)).2 = none := by
    obtain ⟨m, cfg, h⟩ := accepted_ok hacc
    refine C81_accepted_runs_partial (exWorldImgs l r) _ _ _ cfg m 6 6 0 5 0 5 1 1 (exUserFlowTimes_wf k) (exWorldImgs_contract hl hr) rfl (by simp [exPipeline, dict, Fields.append, Fields.keys])
      rfl (.inl ⟨_, _, rfl, .inl rfl, .inl rfl⟩) (.inr ⟨rfl, rfl, rfl, rfl, rfl⟩) (by omega) ?_ ?_ (.inl ⟨rfl, rfl⟩) h
    · intro he
      exact absurd rfl he
    · intro v hv
      have := (Option.some.inj hv).symm
      subst this
      refine ⟨_, rfl, .inr (.inr ⟨rfl, .inr ⟨rfl, rfl⟩, ?_⟩)⟩
      intro c st wn mar half hc hi
      obtain rfl : wn = .int 3 := mc_window (fun _ => rfl) hc
      have : half = 1 := by
        rcases hi with hi | ⟨-, ⟨hi, -⟩ | ⟨hi, -⟩⟩
        · simp only [J.int.injEq] at hi; omega
        · simp at hi
        · simp at hi
      subst this
      exact ⟨⟨1, 2, by omega⟩, ⟨1, 2, by decide⟩⟩
  exact Prod.ext rfl this

/-- Whatever the images: one iteration, then four. -/
example (fl fr : Img ℚ) (hl : exSized fl) (hr : exSized fr) : ∃ files rest files' rest',
    Main.main (exWorldImgs fl fr) (exUserFlowTimes 1) = (.rasters files :: rest, none) ∧
    Main.main (exWorldImgs fl fr) (exUserFlowTimes 4) = (.rasters files' :: rest', none) ∧
    ∀ i < 6, ∀ j < 6, files'.score.values i j = files.score.values i j ∧
      MovedByAtMost 3 .nan (files.row.values i j) (files'.row.values i j) ∧ MovedByAtMost 3 .nan (files.col.values i j) (files'.col.values i j) := by
  obtain ⟨_, _, _, _, cfg⟩ := exTimes_flowed fl fr 1
  obtain ⟨_, _, _, _, cfg'⟩ := exTimes_flowed fl fr (1 + 3)
  have ct := exWorldImgs_contract hl hr
  have h1 := exTimes_runs hl hr 1 (by decide +kernel)
  have h2 := exTimes_runs hl hr 4 (by decide +kernel)
  obtain ⟨files, rest, files', rest', o, o', z, -, key⟩ := C142_more_iterations_flow _ _ _ _ _ _ _ _ _ _ _ _ _ _ _ 6 6
    _ _ _ _ _ _ _ _ _ _ _ _ (exUserFlowTimes_wf 1) (exUserFlowTimes_wf 4) ct.disk ct.pandora ct.keeps ct.offset cfg cfg' h1 h2
  obtain ⟨z1, z2⟩ := z _ List.mem_cons_self
  exact ⟨files, rest, files', rest', by rw [h1]; exact congrArg (·, none) o, by rw [h2]; exact congrArg (·, none) o',
    fun i hi j hj => key i ((z1 i).2 (by omega)) j ((z2 j).2 (by omega))⟩

end Verif.Props
