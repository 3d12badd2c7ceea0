import Verif.Props.InterpWider
import Verif.Spec.Steps

/-!
# C157: the steps only choose the pixels, with an interpolation
-/

namespace Verif.Props

open Verif Verif.Config Verif.Machine Verif.ImgTools Verif.MatchingCost Verif.Disparity Verif.Run Verif.Main Verif.Spec Verif.Save
  Verif.Statistics

set_option linter.unusedSectionVars false

variable {K : Type} [Field K] [LinearOrder K] [IsStrictOrderedRing K] [FloorRing K]

/-- C157: steps with an interpolation. Two successful executions on the same full images, without estimation, with the same intervals, subpixel factor,
window cost and invalid value: whatever the steps, the three rasters hold the same values at the pixels they share. -/
theorem C157_steps_interpolation (w : World K) (user user' p p' mc mc' inp inp' l r f f' : Fields) (out out' : List (Written K))
    (H W : Nat) (dRow dCol : Disp) (sr sc sr' sc' : Nat) (invalid : F K) (n hw : Nat) (me : Measure) (ker : List (F K × F K) → F K)
    (wf : user.wf) (wf' : user'.wf)
    (hdisk : DiskContract w H W) (hpan : PandoraContract w) (hkeeps : PandoraKeeps w.pandora)
    (hb : BoundsContract w.run.interp) (he : ReadsInside w.run.interp)
    (cfg : Interpolated w user p mc inp l r f H W dRow dCol sr sc invalid n hw me ker)
    (cfg' : Interpolated w user' p' mc' inp' l r f' H W dRow dCol sr' sc' invalid n hw me ker)
    (h : Main.main w user = (out, none)) (h' : Main.main w user' = (out', none)) :
    ∃ files rest files' rest', out = .rasters files :: rest ∧ out' = .rasters files' :: rest' ∧
      (∀ f ∈ [files.row, files.col, files.score], (∀ i, i < f.h ↔ i * sr < H) ∧ ∀ j, j < f.w ↔ j * sc < W) ∧
      (∀ f ∈ [files'.row, files'.col, files'.score], (∀ i, i < f.h ↔ i * sr' < H) ∧ ∀ j, j < f.w ↔ j * sc' < W) ∧
      AgreeOnCommon files files' sr sc sr' sc' := by
  obtain ⟨s⟩ := interpolated_stages cfg wf hpan h
  obtain ⟨s'⟩ := interpolated_stages cfg' wf' hpan h'
  obtain ⟨er, el⟩ := s.read_images s' cfg.full cfg'.full cfg.noEstimation cfg'.noEstimation cfg.input cfg'.input cfg.left cfg'.left
    cfg.right cfg'.right wf wf'
  obtain ⟨hn, -, ⟨sl, -⟩, o, z, ax, ay, fr, lr, fc, lc, gmin, gmax, ⟨x1, x2⟩, ⟨fy, fx⟩, hg, key⟩ := s.interpolated cfg wf hdisk hkeeps hb
  obtain ⟨-, -, ⟨sl', -⟩, o', z', ax', ay', fr', lr', fc', lc', gmin', gmax', ⟨x1', x2'⟩, ⟨fy', fx'⟩, hg', key'⟩ :=
    s'.interpolated cfg' wf' hdisk hkeeps hb
  obtain ⟨rfl, rfl⟩ := extent_same sl sl' o o' (fun _ _ _ _ => ⟨rfl, rfl⟩) x1 x1'
  obtain ⟨rfl, rfl⟩ := extent_same sl sl' o o' (fun _ _ _ _ => ⟨rfl, rfl⟩) x2 x2'
  rw [er, el] at key'
  refine ⟨s.files, _, s'.files, _, s.outIs, s'.outIs, z, z', fun i j i' j' hi hj _ _ ea eb => ?_⟩
  have ha : i * sr < H := ((z _ List.mem_cons_self).1 i).1 hi
  have hb' : j * sc < W := ((z _ List.mem_cons_self).2 j).1 hj
  obtain ⟨r0, c0, s0, b1, p1⟩ := key i j _ _ rfl rfl ha hb'
  obtain ⟨r1, c1, s1, b2, p2⟩ := key' i' j' _ _ ea eb ha hb'
  obtain ⟨g1, g2⟩ := hg _ ha _ hb'
  obtain ⟨g1', g2'⟩ := hg' _ ha _ hb'
  have costs : ∀ x y : K, Pandora.windowCost hw ker s.left.img (slabImg w.run.zoom s.right.img n x) gmin' gmax' (i * sr) (j * sc) y =
      Pandora.windowCost hw ker s.left.img (slabImg w.run.zoom s.right.img n x) gmin gmax (i * sr) (j * sc) y := by
    intro x y
    unfold Pandora.windowCost Pandora.windowOk
    rw [g1, g2, g1', g2']
  simp only [costs] at b2 p2
  obtain ⟨rfl, rfl, -⟩ := BestPair.unique b1 b2
  obtain ⟨q1, q2, q3⟩ := interp_same he (lattice_same hn fx fx') (lattice_same hn fy fy') ⟨fx.pos, fy.pos⟩ (fun _ _ _ _ => ⟨Iff.rfl, rfl⟩) p1 p2
  exact ⟨q1.symm, q2.symm, q3.symm⟩

/-! ## Example -/

/-- `exUserSmooth` with one row out of two and one column out of three. -/
def exUserSmoothRows : Fields := dict [("input", .obj (exInputBox 0 0)), ("pipeline", .obj (exPipeline none 2 3 (some exInterp)))]

theorem exUserSmoothRows_wf : exUserSmoothRows.wf := by
  simp [exUserSmoothRows, exInputBox, exL, exR, exPipeline, exInterp, dict, Fields.append, Fields.wf, J.wf, Fields.keys]

theorem exSmoothRows_cfg (l r : Img ℚ) :
    ∃ p mc inp f, Interpolated (exWorldImgs l r) exUserSmoothRows p mc inp exL exR f 6 6 ⟨.const 0, 0⟩ ⟨.const 0, 0⟩ 2 3 .nan 1 1 .min sad :=
  ⟨_, _, _, _, rfl, rfl, rfl, rfl, rfl, rfl, rfl, rfl, rfl,
    ⟨_, _, _, _, _, .int 1, rfl, rfl, rfl, .inl rfl, rfl, rfl⟩,
    ⟨⟨_, rfl, ⟨_, _, _, rfl, rfl, rfl, .inl rfl, .inl ⟨_, .inl rfl, rfl⟩⟩, ⟨_, _, _, rfl, rfl, rfl, .inl rfl, .inl ⟨_, .inl rfl, rfl⟩⟩⟩,
    .inr ⟨rfl, rfl, rfl, rfl, rfl⟩,
    ⟨_, _, _, rfl, rfl, rfl, .inl ⟨_, _, rfl, .inl rfl, .inl rfl⟩, .inl ⟨_, rfl, .inr (.inr (.inl ⟨rfl, rfl⟩))⟩⟩⟩⟩

theorem exSmoothRows_runs {l r : Img ℚ} (hl : exSized l) (hr : exSized r) :
    Main.main (exWorldImgs l r) exUserSmoothRows = ((Main.main (exWorldImgs l r) exUserSmoothRows).1, none) := by
  have : (Main.main (exWorldImgs l r) exUserSmoothRows).2 = none := by
    obtain ⟨m, cfg, h⟩ := accepted_ok (w := exWorldSixF) (user := exUserSmoothRows) (by decide +kernel)
    refine C81_accepted_runs_partial (exWorldImgs l r) _ _ _ cfg m 6 6 0 5 0 5 2 3 exUserSmoothRows_wf (exWorldImgs_contract hl hr) rfl
      (by simp [exPipeline, dict, Fields.append, Fields.keys])
      rfl (.inl ⟨_, _, rfl, .inl rfl, .inl rfl⟩) (.inr ⟨rfl, rfl, rfl, rfl, rfl⟩) (by omega) ?_ ?_
      (.inr (.inr ⟨_, _, _, _, _, _, _, rfl, rfl, rfl, rfl, rfl, .inl rfl, .inl rfl⟩)) h
    · intro he
      exact absurd rfl he
    · intro v hv
      have : v = exInterp := (Option.some.inj hv).symm
      subst this
      exact ⟨_, rfl, .inl rfl⟩
  exact Prod.ext rfl this

/-- Whatever the images: with one row out of two and one column out of three, the values are those of the whole rasters at these rows and columns. -/
example (fl fr : Img ℚ) (hl : exSized fl) (hr : exSized fr) : ∃ files rest files' rest',
    Main.main (exWorldImgs fl fr) exUserSmooth = (.rasters files :: rest, none) ∧
    Main.main (exWorldImgs fl fr) exUserSmoothRows = (.rasters files' :: rest', none) ∧
    files'.row.h = 3 ∧ files'.row.w = 2 ∧
    ∀ a < 3, ∀ b < 2, files.row.values (2 * a) (3 * b) = files'.row.values a b ∧ files.col.values (2 * a) (3 * b) = files'.col.values a b ∧
      files.score.values (2 * a) (3 * b) = files'.score.values a b := by
  obtain ⟨_, _, _, _, cfg⟩ := exSmooth_cfg fl fr
  obtain ⟨_, _, _, _, cfg'⟩ := exSmoothRows_cfg fl fr
  have ct := exWorldImgs_contract hl hr
  have h1 := exSmooth_runs hl hr
  have h2 := exSmoothRows_runs hl hr
  obtain ⟨files, rest, files', rest', o, o', z, z', key⟩ := C157_steps_interpolation _ _ _ _ _ _ _ _ _ _ _ _ _ _ _ 6 6 _ _ _ _ _ _ _ _ _ _ _
    exUserSmooth_wf exUserSmoothRows_wf ct.disk ct.pandora ct.keeps exI_bounds exI_reads cfg cfg' h1 h2
  have u := z _ List.mem_cons_self
  have u' := z' _ List.mem_cons_self
  refine ⟨files, rest, files', rest', by rw [h1]; exact congrArg (·, none) o, by rw [h2]; exact congrArg (·, none) o', ?_, ?_,
    fun a ha b hb => key (2 * a) (3 * b) a b ((u.1 _).2 (by omega)) ((u.2 _).2 (by omega)) ((u'.1 _).2 (by omega)) ((u'.2 _).2 (by omega))
      (by omega) (by omega)⟩
  · have e1 := (u'.1 2).2 (by omega)
    have e2 := (u'.1 3).not.2 (by omega)
    omega
  · have e1 := (u'.2 1).2 (by omega)
    have e2 := (u'.2 2).not.2 (by omega)
    omega

end Verif.Props
