import Verif.Props.FlowWider
import Verif.Props.Values

/-!
# C156: more pairs never worsen the score of an optical flow
-/

namespace Verif.Props

open Verif Verif.Config Verif.Machine Verif.ImgTools Verif.MatchingCost Verif.Disparity Verif.Run Verif.Main Verif.Spec Verif.Save
  Verif.Statistics Verif.OpticalFlow

set_option linter.unusedSectionVars false

variable {K : Type} [Field K] [LinearOrder K] [IsStrictOrderedRing K] [FloorRing K]

/-- C156: a finer subpixel factor and larger intervals never worsen the score with an optical flow. Two successful executions on the same full images,
without estimation, with the same window cost and subpixel factors `n` and `q * n`, the intervals of the first being in those of the second, whatever
their steps, iterations, windows of the flow and invalid values: at each pixel they share, the score of the first is its invalid value or is not better
than the score of the second, which is then a cost of the second. -/
theorem C156_flow_never_worse (w : World K) (user user' p p' mc mc' inp inp' l r f f' : Fields) (out out' : List (Written K))
    (H W : Nat) (dRow dCol dRow' dCol' : Disp) (sr sc sr' sc' : Nat) (invalid invalid' : F K) (n q hw : Nat) (me : Measure)
    (ker : List (F K × F K) → F K) (it half it' half' : Nat) (wf : user.wf) (wf' : user'.wf)
    (hdisk : DiskContract w H W) (hpan : PandoraContract w) (hkeeps : PandoraKeeps w.pandora) (hoff : OffsetContract w) (hzoom : w.run.zoom = zoomLinear)
    (cfg : Flowed w user p mc inp l r f H W dRow dCol sr sc invalid n hw me ker it half)
    (cfg' : Flowed w user' p' mc' inp' l r f' H W dRow' dCol' sr' sc' invalid' (q * n) hw me ker it' half')
    (hr : Nested dRow dRow' H W) (hc : Nested dCol dCol' H W)
    (h : Main.main w user = (out, none)) (h' : Main.main w user' = (out', none)) :
    ∃ files rest files' rest', out = .rasters files :: rest ∧ out' = .rasters files' :: rest' ∧
      (∀ f ∈ [files.row, files.col, files.score], (∀ i, i < f.h ↔ i * sr < H) ∧ ∀ j, j < f.w ↔ j * sc < W) ∧
      (∀ f ∈ [files'.row, files'.col, files'.score], (∀ i, i < f.h ↔ i * sr' < H) ∧ ∀ j, j < f.w ↔ j * sc' < W) ∧
      ∀ i j i' j' a b : Nat, a = i * sr → a = i' * sr' → b = j * sc → b = j' * sc' → a < H → b < W →
        files.score.values i j = invalid ∨
        files.score.values i j ≠ .nan ∧ files'.score.values i' j' ≠ .nan ∧ AtLeastAsGood me (files'.score.values i' j') (files.score.values i j) := by
  obtain ⟨s⟩ := flowed_stages cfg wf hpan h
  obtain ⟨s'⟩ := flowed_stages cfg' wf' hpan h'
  obtain ⟨⟨hn, -⟩, -, -, -, z, key⟩ := s.flowRasters cfg wf hdisk hkeeps hoff
  obtain ⟨⟨hn', -⟩, -, -, -, z', key'⟩ := s'.flowRasters cfg' wf' hdisk hkeeps hoff
  have hq : 0 < q := Nat.pos_of_mul_pos_right hn'
  obtain ⟨er, el⟩ := s.flow_images s' cfg cfg' wf wf'
  rw [hzoom] at key key'
  rw [er, el] at key'
  refine ⟨s.files, _, s'.files, _, s.outIs, s'.outIs, z, z', fun i j i' j' a b ea ea' eb eb' ha hb => ?_⟩
  obtain ⟨gmin, gmax, g, r0, c0, b1, -⟩ :=
    key i (((z _ List.mem_cons_self).1 i).2 (by omega)) j (((z _ List.mem_cons_self).2 j).2 (by omega))
  obtain ⟨gmin', gmax', g', r1, c1, b2, -⟩ :=
    key' i' (((z' _ List.mem_cons_self).1 i').2 (by omega)) j' (((z' _ List.mem_cons_self).2 j').2 (by omega))
  rw [← ea, ← eb] at g b1
  rw [← ea', ← eb'] at g' b2
  obtain ⟨i1, i2⟩ := hr a b (by omega) (by omega) (by omega) (by omega)
  obtain ⟨i3, i4⟩ := hc a b (by omega) (by omega) (by omega) (by omega)
  have wide : ∀ x y : K, AskedPair dRow dCol n a b x y → AskedPair dRow' dCol' (q * n) a b x y := by
    rintro x y ⟨⟨u, v, q1, q1'⟩, ⟨q2, q3⟩, q4, q5⟩
    refine ⟨⟨q * u, q * v, ?_, ?_⟩, ⟨le_trans (Int.cast_le.2 i1) q2, le_trans q3 (Int.cast_le.2 i2)⟩, le_trans (Int.cast_le.2 i3) q4,
      le_trans q5 (Int.cast_le.2 i4)⟩
    · push_cast; rw [← q1]; ring
    · push_cast; rw [← q1']; ring
  have costs : ∀ x y : K, AskedPair dRow dCol n a b x y →
      Pandora.windowCost hw ker s.left.img (slabImg zoomLinear s.right.img n x) gmin gmax a b y =
      Pandora.windowCost hw ker s.left.img (slabImg zoomLinear s.right.img (q * n) x) gmin' gmax' a b y := by
    intro x y hxy
    obtain ⟨-, -, q4', q5'⟩ := wide x y hxy
    obtain ⟨⟨u, v, q1, -⟩, -, q4, q5⟩ := hxy
    rw [slab_finer s.right.img hn hq ⟨u, q1⟩]
    exact cost_wider (g y q4 q5) (g' y q4' q5')
  by_cases hex : ∃ x y, AskedPair dRow dCol n a b x y ∧
      Pandora.windowCost hw ker s.left.img (slabImg zoomLinear s.right.img n x) gmin gmax a b y ≠ .nan
  · right
    obtain ⟨⟨q1, x, y, q2, q3⟩, -⟩ := b1.best hex
    rw [costs x y q2] at q3
    have best := b2.best ⟨x, y, wide x y q2, by rw [q3]; exact q1⟩
    exact ⟨q1, best.1.1, best.2 _ ⟨q1, x, y, wide x y q2, q3⟩⟩
  · left
    push Not at hex
    exact (b1.invalid hex).2.2

/-! ## Example -/

/-- Pandora keeps the subpixel factor of the user. -/
def exPandoraFine (f : Fields) : Except Err (J × J × J × Margins) :=
  .ok (.int 3, if f.get "subpix" = some (.int 2) then .int 2 else .int 1, .int 1, ⟨1, 1, 1, 1⟩)

def exWorldSixFine : World ℚ := { exWorldSixF with pandora := exPandoraFine }

noncomputable def exWorldFine (l r : Img ℚ) : World ℚ := { exWorldImgs l r with pandora := exPandoraFine }

theorem exWorldFine_contract {l r : Img ℚ} (hl : exSized l) (hr : exSized r) : RunContract (exWorldFine l r) 6 6 := by
  obtain ⟨⟨d1, d2, d3, d4, d5⟩, ⟨-, p2⟩, -, r, a, o, i, s⟩ := exWorldImgs_contract hl hr
  refine ⟨⟨d1, d2, d3, d4, d5⟩, ⟨?_, p2⟩, ⟨?_, ?_⟩, r, a, o, i, s⟩
  · intro f a s b m h
    simp only [exWorldFine, exPandoraFine, Except.ok.injEq, Prod.mk.injEq] at h
    obtain ⟨-, rfl, -, -⟩ := h
    split_ifs
    · exact ⟨2, .inl rfl, by decide⟩
    · exact ⟨1, .inl rfl, by decide⟩
  · intro f a s b m h
    simp only [exWorldFine, exPandoraFine, Except.ok.injEq, Prod.mk.injEq] at h
    obtain ⟨rfl, rfl, rfl, -⟩ := h
    refine ⟨⟨_, .inl rfl⟩, ?_, ⟨_, .inl rfl⟩⟩
    split_ifs
    · exact ⟨1, .inl rfl⟩
    · exact ⟨0, .inl rfl⟩
  · intro f g a s b m h hg1 hg2 hg3 _
    simp only [exWorldFine, exPandoraFine, Except.ok.injEq, Prod.mk.injEq] at h ⊢
    obtain ⟨rfl, rfl, rfl, rfl⟩ := h
    refine ⟨rfl, ?_, rfl, rfl⟩
    rw [hg2]
    by_cases hc : f.get "subpix" = some (.int 2)
    · rw [if_pos hc, if_pos rfl]
    · rw [if_neg hc, if_neg (by simp)]

theorem exPandoraFine_window {v c st wn : J} {mar : Margins} (h : matchingCostCheck exPandoraFine v = .ok (c, st, wn, mar)) : wn = .int 3 := by
  unfold matchingCostCheck at h
  simp only [exPandoraFine] at h
  repeat' split at h
  all_goals first
    | (simp only [Except.ok.injEq, Prod.mk.injEq] at h; exact h.2.2.1.symm)
    | simp at h

/-- An optical flow from halves of pixels, with intervals of two pixels on each side. -/
def exUserFlowHalf : Fields := dict [("input", .obj (exInputBox 0 2)), ("pipeline", .obj (dict [
    ("matching_cost", .obj (dict [("matching_cost_method", .str "zncc"), ("window_size", .int 1),
      ("step", .arr (.cons (.int 1) (.cons (.int 1) .nil))), ("subpix", .int 2)])),
    ("disparity", .obj (dict [("disparity_method", .str "wta"), ("invalid_disparity", .str "NaN")])), ("refinement", exFlow)]))]

theorem exUserFlowHalf_wf : exUserFlowHalf.wf := by
  simp [exUserFlowHalf, exInputBox, exL, exR, exFlow, dict, Fields.wf, J.wf, Fields.keys]

theorem exFine_flowed (l r : Img ℚ) (k : Int) :
    ∃ p mc inp f, Flowed (exWorldFine l r) (exUserFlowFull 0 k) p mc inp exL exR f 6 6 ⟨.const 0, k⟩ ⟨.const 0, k⟩ 1 1 .nan 1 1 .min sad 1 1 :=
  ⟨_, _, _, _, rfl, rfl, rfl, rfl, rfl, rfl, rfl, rfl, .inl ⟨_, rfl, .inl rfl⟩, rfl, ⟨_, _, _, _, rfl, .inl rfl⟩,
    ⟨_, _, _, _, _, .int 1, rfl, rfl, rfl, .inl rfl, rfl, rfl⟩,
    ⟨⟨_, rfl, ⟨_, _, _, rfl, rfl, rfl, .inl rfl, .inl ⟨_, .inl rfl, rfl⟩⟩, ⟨_, _, _, rfl, rfl, rfl, .inl rfl, .inl ⟨_, .inl rfl, rfl⟩⟩⟩,
    .inr ⟨rfl, rfl, rfl, rfl, rfl⟩,
    ⟨_, _, _, rfl, rfl, rfl, .inl ⟨_, _, rfl, .inl rfl, .inl rfl⟩, .inl ⟨_, rfl, .inr (.inr (.inl ⟨rfl, rfl⟩))⟩⟩⟩⟩

theorem exFine_half (l r : Img ℚ) :
    ∃ p mc inp f, Flowed (exWorldFine l r) exUserFlowHalf p mc inp exL exR f 6 6 ⟨.const 0, 2⟩ ⟨.const 0, 2⟩ 1 1 .nan (2 * 1) 1 .min sad 1 1 :=
  ⟨_, _, _, _, rfl, rfl, rfl, rfl, rfl, rfl, rfl, rfl, .inl ⟨_, rfl, .inl rfl⟩, rfl, ⟨_, _, _, _, rfl, .inl rfl⟩,
    ⟨_, _, _, _, _, .int 2, rfl, rfl, rfl, .inl rfl, rfl, rfl⟩,
    ⟨⟨_, rfl, ⟨_, _, _, rfl, rfl, rfl, .inl rfl, .inl ⟨_, .inl rfl, rfl⟩⟩, ⟨_, _, _, rfl, rfl, rfl, .inl rfl, .inl ⟨_, .inl rfl, rfl⟩⟩⟩,
    .inr ⟨rfl, rfl, rfl, rfl, rfl⟩,
    ⟨_, _, _, rfl, rfl, rfl, .inl ⟨_, _, rfl, .inl rfl, .inl rfl⟩, .inl ⟨_, rfl, .inr (.inr (.inl ⟨rfl, rfl⟩))⟩⟩⟩⟩

theorem exFine_runs {l r : Img ℚ} (hl : exSized l) (hr : exSized r) {user p0 mc : Fields} (wf : user.wf)
    (hu : user.get "pipeline" = some (.obj p0)) (hd : "disparity" ∈ p0.keys) (hmc : p0.get "matching_cost" = some (.obj mc)) (hst : StepIs mc 1 1)
    (hroi : user.get "ROI" = none) (he : p0.get "estimation" = none) (href : p0.get "refinement" = some exFlow)
    (hacc : accepted exWorldSixFine user = true) :
    Main.main (exWorldFine l r) user = ((Main.main (exWorldFine l r) user).1, none) := by
  have : (Main.main (exWorldFine l r) user).2 = none := by
    obtain ⟨m, cfg, h⟩ := accepted_ok hacc
    refine C81_accepted_runs_partial (exWorldFine l r) _ _ _ cfg m 6 6 0 5 0 5 1 1 wf (exWorldFine_contract hl hr) hu hd
      hmc hst (.inr ⟨hroi, rfl, rfl, rfl, rfl⟩) (by omega) ?_ ?_ (.inl ⟨rfl, rfl⟩) h
    · intro hne
      exact absurd he hne
    · intro v hv
      rw [href, Option.some.injEq] at hv
      subst hv
      refine ⟨_, rfl, .inr (.inr ⟨rfl, .inr ⟨rfl, rfl⟩, ?_⟩)⟩
      intro c st wn mar half hc hi
      obtain rfl := exPandoraFine_window hc
      have : half = 1 := by
        rcases hi with hi | ⟨-, ⟨hi, -⟩ | ⟨hi, -⟩⟩
        · simp only [J.int.injEq] at hi; omega
        · simp at hi
        · simp at hi
      subst this
      exact ⟨⟨1, 2, by decide⟩, ⟨1, 2, by decide⟩⟩
  exact Prod.ext rfl this

/-- Whatever the images: the scores from halves of pixels, two pixels on each side, are at least as good as those from pixels, one on each side. -/
example (l r : Img ℚ) (hl : exSized l) (hr : exSized r) : ∃ files rest files' rest',
    Main.main (exWorldFine l r) (exUserFlowFull 0 1) = (.rasters files :: rest, none) ∧
    Main.main (exWorldFine l r) exUserFlowHalf = (.rasters files' :: rest', none) ∧
    ∀ a < 6, ∀ b < 6, files.score.values a b = .nan ∨
      files'.score.values a b ≠ .nan ∧ F.le (files'.score.values a b) (files.score.values a b) = true := by
  obtain ⟨_, _, _, _, cfg⟩ := exFine_flowed l r 1
  obtain ⟨_, _, _, _, cfg'⟩ := exFine_half l r
  have ct := exWorldFine_contract hl hr
  have h1 := exFine_runs hl hr (exUserFlowFull_wf 0 1) rfl (by decide) rfl (.inl ⟨_, _, rfl, .inl rfl, .inl rfl⟩) rfl rfl rfl (by decide +kernel)
  have h2 := exFine_runs hl hr exUserFlowHalf_wf rfl (by decide) rfl (.inl ⟨_, _, rfl, .inl rfl, .inl rfl⟩) rfl rfl rfl (by decide +kernel)
  obtain ⟨files, rest, files', rest', o, o', -, -, key⟩ := C156_flow_never_worse _ _ _ _ _ _ _ _ _ _ _ _ _ _ _ 6 6 _ _ _ _ _ _ _ _ _ _ 1 2 _ _ _ _ _ _ _
    (exUserFlowFull_wf 0 1) exUserFlowHalf_wf ct.disk ct.pandora ct.keeps ct.offset rfl cfg cfg' (fun _ _ _ _ _ _ => by simp only [initAt]; decide)
    (fun _ _ _ _ _ _ => by simp only [initAt]; decide) h1 h2
  refine ⟨files, rest, files', rest', by rw [h1]; exact congrArg (·, none) o, by rw [h2]; exact congrArg (·, none) o', fun a ha b hb => ?_⟩
  exact (key a b a b a b (by omega) (by omega) (by omega) (by omega) ha hb).imp id fun q => ⟨q.2.1, q.2.2⟩

end Verif.Props
