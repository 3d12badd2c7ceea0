import Verif.Props.FlowWider
import Verif.Props.FlowNoData
import Verif.Props.Kept

/-!
# C155: the steps only choose the pixels, with an optical flow
-/

namespace Verif.Props

open Verif Verif.Config Verif.Machine Verif.ImgTools Verif.MatchingCost Verif.Disparity Verif.Run Verif.Main Verif.Spec Verif.Save
  Verif.Statistics Verif.OpticalFlow

set_option linter.unusedSectionVars false

variable {K : Type} [Field K] [LinearOrder K] [IsStrictOrderedRing K] [FloorRing K]

/-- C155: steps with an optical flow. Two successful executions on the same full images, without estimation, with the same intervals, subpixel factor,
window cost, invalid value, half window and iterations, whatever their steps. At each pixel they share the score is the same; the refined disparities are
the same when both executions, or none, have points on each side of the pixel, at least half a window away; an execution without such points gives the
invalid value. Missing: the pixels where one execution only has such points (`C155_false`). -/
theorem C155_steps_flow_partial (w : World K) (user user' p p' mc mc' inp inp' l r f f' : Fields) (out out' : List (Written K))
    (H W : Nat) (dRow dCol : Disp) (sr sc sr' sc' : Nat) (invalid : F K) (n hw : Nat) (me : Measure) (ker : List (F K × F K) → F K) (it half : Nat)
    (wf : user.wf) (wf' : user'.wf)
    (hdisk : DiskContract w H W) (hpan : PandoraContract w) (hkeeps : PandoraKeeps w.pandora) (hoff : OffsetContract w)
    (cfg : Flowed w user p mc inp l r f H W dRow dCol sr sc invalid n hw me ker it half)
    (cfg' : Flowed w user' p' mc' inp' l r f' H W dRow dCol sr' sc' invalid n hw me ker it half)
    (h : Main.main w user = (out, none)) (h' : Main.main w user' = (out', none)) :
    ∃ files rest files' rest', out = .rasters files :: rest ∧ out' = .rasters files' :: rest' ∧
      (∀ f ∈ [files.row, files.col, files.score], (∀ i, i < f.h ↔ i * sr < H) ∧ ∀ j, j < f.w ↔ j * sc < W) ∧
      (∀ f ∈ [files'.row, files'.col, files'.score], (∀ i, i < f.h ↔ i * sr' < H) ∧ ∀ j, j < f.w ↔ j * sc' < W) ∧
      ∀ i j i' j' a b : Nat, a = i * sr → a = i' * sr' → b = j * sc → b = j' * sc' → a < H → b < W →
        files'.score.values i' j' = files.score.values i j ∧
        ((InnerPoint 0 H sr half a ∧ InnerPoint 0 W sc half b ↔ InnerPoint 0 H sr' half a ∧ InnerPoint 0 W sc' half b) →
          files'.row.values i' j' = files.row.values i j ∧ files'.col.values i' j' = files.col.values i j) ∧
        (¬ (InnerPoint 0 H sr half a ∧ InnerPoint 0 W sc half b) → files.row.values i j = invalid ∧ files.col.values i j = invalid) := by
  obtain ⟨s⟩ := flowed_stages cfg wf hpan h
  obtain ⟨s'⟩ := flowed_stages cfg' wf' hpan h'
  obtain ⟨-, im, -, -, z, key⟩ := s.flowRasters cfg wf hdisk hkeeps hoff
  obtain ⟨-, im', -, -, z', key'⟩ := s'.flowRasters cfg' wf' hdisk hkeeps hoff
  obtain ⟨er, el⟩ := s.flow_images s' cfg cfg' wf wf'
  rw [er, el] at key'
  refine ⟨s.files, _, s'.files, _, s.outIs, s'.outIs, z, z', fun i j i' j' a b ea ea' eb eb' ha hb => ?_⟩
  obtain ⟨gmin, gmax, g, r0, c0, b1, p1, q1⟩ :=
    key i (((z _ List.mem_cons_self).1 i).2 (by omega)) j (((z _ List.mem_cons_self).2 j).2 (by omega))
  obtain ⟨gmin', gmax', g', r1, c1, b2, p2, q2⟩ :=
    key' i' (((z' _ List.mem_cons_self).1 i').2 (by omega)) j' (((z' _ List.mem_cons_self).2 j').2 (by omega))
  rw [← ea, ← eb] at g b1 p1 q1
  rw [← ea', ← eb'] at g' b2 p2 q2
  have costs : ∀ x y, AskedPair dRow dCol n (a : Int) (b : Int) x y →
      Pandora.windowCost hw ker s.left.img (slabImg w.run.zoom s.right.img n x) gmin' gmax' a b y =
      Pandora.windowCost hw ker s.left.img (slabImg w.run.zoom s.right.img n x) gmin gmax a b y := fun x y q =>
    (free_window (moved := slabImg w.run.zoom s.right.img n) (g' y q.2.2.1 q.2.2.2)).trans (free_window (g y q.2.2.1 q.2.2.2)).symm
  obtain ⟨rfl, rfl, e3⟩ := BestPair.unique (best_congr costs b2) b1
  refine ⟨e3, fun hinn => ?_, q1⟩
  by_cases hi : InnerPoint 0 H sr half (a : Int) ∧ InnerPoint 0 W sc half (b : Int)
  · obtain ⟨u, v, k1, k2, t, k3, k4, k5⟩ := p1 hi
    obtain ⟨u', v', k1', k2', t', k3', k4', k5'⟩ := p2 (hinn.1 hi)
    obtain rfl := startShift_unique k1 k1'
    obtain rfl := startShift_unique k2 k2'
    rw [← k3] at k3'
    rw [k4, k5, k4', k5', k3']
    exact ⟨rfl, rfl⟩
  · obtain ⟨k1, k2⟩ := q1 hi
    obtain ⟨k1', k2'⟩ := q2 fun q => hi (hinn.2 q)
    exact ⟨k1'.trans k1.symm, k2'.trans k2.symm⟩

/-! ## Example and disagreement -/

/-- `exUserFlowFull` with one row out of two. -/
def exUserFlowRows : Fields := dict [("input", .obj (exInputBox 0 1)), ("pipeline", .obj (exPipeline none 2 1 (some exFlow)))]

theorem exUserFlowRows_wf : exUserFlowRows.wf := by
  simp [exUserFlowRows, exInputBox, exL, exR, exPipeline, exFlow, dict, Fields.append, Fields.wf, J.wf, Fields.keys]

theorem exRows_flowed (l r : Img ℚ) :
    ∃ p mc inp f, Flowed (exWorldImgs l r) exUserFlowRows p mc inp exL exR f 6 6 ⟨.const 0, 1⟩ ⟨.const 0, 1⟩ 2 1 .nan 1 1 .min sad 1 1 :=
  ⟨_, _, _, _, rfl, rfl, rfl, rfl, rfl, rfl, rfl, rfl, .inl ⟨_, rfl, .inl rfl⟩, rfl, ⟨_, _, _, _, rfl, .inl rfl⟩,
    ⟨_, _, _, _, _, .int 1, rfl, rfl, rfl, .inl rfl, rfl, rfl⟩,
    ⟨⟨_, rfl, ⟨_, _, _, rfl, rfl, rfl, .inl rfl, .inl ⟨_, .inl rfl, rfl⟩⟩, ⟨_, _, _, rfl, rfl, rfl, .inl rfl, .inl ⟨_, .inl rfl, rfl⟩⟩⟩,
    .inr ⟨rfl, rfl, rfl, rfl, rfl⟩,
    ⟨_, _, _, rfl, rfl, rfl, .inl ⟨_, _, rfl, .inl rfl, .inl rfl⟩, .inl ⟨_, rfl, .inr (.inr (.inl ⟨rfl, rfl⟩))⟩⟩⟩⟩

theorem exRows_runs {l r : Img ℚ} (hl : exSized l) (hr : exSized r) :
    Main.main (exWorldImgs l r) exUserFlowRows = ((Main.main (exWorldImgs l r) exUserFlowRows).1, none) := by
  have : (Main.main (exWorldImgs l r) exUserFlowRows).2 = none := by
    obtain ⟨m, cfg, h⟩ := accepted_ok (w := exWorldSixF) (user := exUserFlowRows) (by decide +kernel)
    refine C81_accepted_runs_partial (exWorldImgs l r) _ _ _ cfg m 6 6 0 5 0 5 2 1 exUserFlowRows_wf (exWorldImgs_contract hl hr) rfl (by decide)
      rfl (.inl ⟨_, _, rfl, .inl rfl, .inl rfl⟩) (.inr ⟨rfl, rfl, rfl, rfl, rfl⟩) (by omega) ?_ ?_
      (.inr (.inr ⟨_, _, _, _, _, _, _, rfl, rfl, rfl, rfl, rfl, .inl rfl, .inl rfl⟩)) h
    · intro he
      exact absurd rfl he
    · intro v hv
      have : v = exFlow := (Option.some.inj hv).symm
      subst this
      refine ⟨_, rfl, .inr (.inr ⟨rfl, .inl rfl, ?_⟩)⟩
      intro c st wn mar half hc hi
      obtain rfl : wn = .int 3 := mc_window (fun _ => rfl) hc
      have : half = 1 := by
        rcases hi with hi | ⟨-, ⟨hi, -⟩ | ⟨hi, -⟩⟩
        · simp only [J.int.injEq] at hi; omega
        · simp at hi
        · simp at hi
      subst this
      exact ⟨⟨1, 2, by decide⟩, ⟨1, 2, by decide⟩⟩
  exact Prod.ext rfl this

/-- Whatever the images of six rows and columns: the scores of the rows 0, 2 and 4 are the same, and the refined disparities of the row 2. -/
example (l r : Img ℚ) (hl : exSized l) (hr : exSized r) : ∃ files rest files' rest',
    Main.main (exWorldImgs l r) (exUserFlowFull 0 1) = (.rasters files :: rest, none) ∧
    Main.main (exWorldImgs l r) exUserFlowRows = (.rasters files' :: rest', none) ∧
    ∀ b < 6, (∀ a < 3, files'.score.values a b = files.score.values (2 * a) b) ∧ files'.row.values 1 b = files.row.values 2 b ∧
      files'.col.values 1 b = files.col.values 2 b := by
  obtain ⟨_, _, _, _, cfg⟩ := exImgs_flowed l r 1
  obtain ⟨_, _, _, _, cfg'⟩ := exRows_flowed l r
  have ct := exWorldImgs_contract hl hr
  have h1 := exImgs_runsFlow hl hr 1 (by decide +kernel)
  have h2 := exRows_runs hl hr
  obtain ⟨files, rest, files', rest', o, o', -, -, key⟩ := C155_steps_flow_partial _ _ _ _ _ _ _ _ _ _ _ _ _ _ _ 6 6 _ _ _ _ _ _ _ _ _ _ _ _ _
    (exUserFlowFull_wf 0 1) exUserFlowRows_wf ct.disk ct.pandora ct.keeps ct.offset cfg cfg' h1 h2
  refine ⟨files, rest, files', rest', by rw [h1]; exact congrArg (·, none) o, by rw [h2]; exact congrArg (·, none) o',
    fun b hb => ⟨fun a ha => (key (2 * a) b a b (2 * a) b (by omega) (by omega) (by omega) (by omega) (by omega) hb).1,
      (key 2 b 1 b 2 b rfl rfl (by omega) (by omega) (by omega) hb).2.1 ?_⟩⟩
  exact and_congr_left' ⟨fun _ => ⟨⟨1, by decide, by decide⟩, 1, by decide, by decide⟩, fun _ => ⟨⟨1, by decide, by decide⟩, 1, by decide, by decide⟩⟩

/-- The full statement: the rasters hold the same values at the pixels they share. -/
def C155Statement : Prop := ∀ (w : World ℚ) (user user' p p' mc mc' inp inp' l r f f' : Fields) (out out' : List (Written ℚ))
    (H W : Nat) (dRow dCol : Disp) (sr sc sr' sc' : Nat) (invalid : F ℚ) (n hw : Nat) (me : Measure) (ker : List (F ℚ × F ℚ) → F ℚ) (it half : Nat),
    user.wf → user'.wf → DiskContract w H W → PandoraContract w → PandoraKeeps w.pandora → OffsetContract w →
    Flowed w user p mc inp l r f H W dRow dCol sr sc invalid n hw me ker it half →
    Flowed w user' p' mc' inp' l r f' H W dRow dCol sr' sc' invalid n hw me ker it half →
    Main.main w user = (out, none) → Main.main w user' = (out', none) →
    ∃ files rest files' rest', out = .rasters files :: rest ∧ out' = .rasters files' :: rest' ∧ AgreeOnCommon files files' sr sc sr' sc'

/-- An image of different values whose gradients are not all proportional. -/
def exBump (x y : Nat) : F ℚ := .fin (20 + 10 * x + y + x * y)

/-- On two equal images, the pixel of row 4 and column 2 has a refined row disparity when all the rows are kept. -/
theorem exBump_pixel {p mc inp f : Fields} {out : List (Written ℚ)}
    (cfg : Flowed (exWorldImgs (exImgSix exBump) (exImgSix exBump)) (exUserFlowFull 0 1) p mc inp exL exR f 6 6 ⟨.const 0, 1⟩ ⟨.const 0, 1⟩ 1 1 .nan 1 1
      .min sad 1 1)
    (h : Main.main (exWorldImgs (exImgSix exBump) (exImgSix exBump)) (exUserFlowFull 0 1) = (out, none)) :
    ∃ files rest, out = .rasters files :: rest ∧ files.row.values 4 2 = .fin 0 := by
  have sz : exSized (exImgSix exBump) := ⟨⟨rfl, rfl⟩, rfl, rfl⟩
  have ct := exWorldImgs_contract sz sz
  obtain ⟨-, files, rest, left, right, o, im, -, -, z, key⟩ := flow_rasters cfg (exUserFlowFull_wf 0 1) ct.disk ct.pandora ct.keeps ct.offset h
  obtain ⟨rfl, rfl⟩ := exWorldImgs_images im
  obtain ⟨y1, y2⟩ := z _ List.mem_cons_self
  refine ⟨files, rest, o, ?_⟩
  obtain ⟨gmin, gmax, g, r0, c0, b1, p1, -⟩ := key 4 ((y1 4).2 (by decide)) 2 ((y2 2).2 (by decide))
  have hg := g (((0 : Int)) : ℚ) (by simp [initAt]) (by simp [initAt])
  obtain ⟨-, t2⟩ := translated_best (left := exImgSix exBump) (right := exImgSix exBump) (a := 4) (b := 2) (dr := 0) (dc := 0)
    sad_dissimilarity sad_onlyEqual b1 ⟨Int.cast_le.1 hg.1, Int.cast_le.1 hg.2⟩
    (by
      intro a b a' b' _ _ _ _ e1 e2
      obtain rfl : a' = a := by omega
      obtain rfl : b' = b := by omega
      rfl)
    (by simp only [BothInside, exImgSix]; decide)
    (by
      refine ⟨fun x y _ _ _ _ => ⟨⟨_, rfl⟩, ?_, rfl⟩, rfl⟩
      simp only [exImgSix, exLeftImg, exBump, ne_eq, F.fin.injEq]
      have : (0 : ℚ) ≤ x := Nat.cast_nonneg x
      have : (0 : ℚ) ≤ y := Nat.cast_nonneg y
      have : (0 : ℚ) ≤ (x : ℚ) * y := by positivity
      intro h
      linarith)
    ⟨⟨by decide, by decide⟩, by decide, by decide⟩
  obtain ⟨rfl, rfl⟩ := t2 rfl (by
    rintro dr dc ⟨⟨h1, h2⟩, h3, h4⟩ hne
    refine ⟨4, 2, by decide, by decide, fun x y hx hy _ _ => ?_⟩
    have e1 : (x : ℚ) = 4 + dr := by exact_mod_cast hx
    have e2 : (y : ℚ) = 2 + dc := by exact_mod_cast hy
    simp only [exImgSix, exBump, ne_eq, F.fin.injEq]
    rw [e1, e2]
    intro h
    have h5 : (12 : ℚ) * dr + 5 * dc + dr * dc = 0 := by push_cast at h; linarith
    have h6 : 12 * dr + 5 * dc + dr * dc = 0 := by exact_mod_cast h5
    simp only [initAt] at h1 h2 h3 h4
    apply hne
    rw [Prod.mk.injEq]
    have : dr = -1 ∨ dr = 0 ∨ dr = 1 := by omega
    rcases this with rfl | rfl | rfl <;> omega)
  obtain ⟨sr, sc, s1, s2, t, rfl, e, -⟩ := p1 ⟨⟨⟨1, by decide, by decide⟩, 1, by decide, by decide⟩, ⟨1, by decide, by decide⟩, 1, by decide, by decide⟩
  obtain rfl := startShift_whole (K := ℚ) s1
  obtain rfl := startShift_whole (K := ℚ) s2
  rw [e]
  have hflow : (exWorldImgs (exImgSix exBump) (exImgSix exBump)).run.flow = exExt := rfl
  rw [hflow]
  decide +kernel

/-- The full statement is false: with one row out of two there is no point after the row 4, and its pixels are invalid. -/
theorem C155_false : ¬ C155Statement := by
  intro hst
  have sz : exSized (exImgSix exBump) := ⟨⟨rfl, rfl⟩, rfl, rfl⟩
  obtain ⟨_, _, _, _, cfg⟩ := exImgs_flowed (exImgSix exBump) (exImgSix exBump) 1
  obtain ⟨_, _, _, _, cfg'⟩ := exRows_flowed (exImgSix exBump) (exImgSix exBump)
  have ct := exWorldImgs_contract sz sz
  have h1 := exImgs_runsFlow sz sz 1 (by decide +kernel)
  have h2 := exRows_runs sz sz
  obtain ⟨files, rest, files', rest', o, o', key⟩ := hst _ _ _ _ _ _ _ _ _ _ _ _ _ _ _ 6 6 _ _ _ _ _ _ _ _ _ _ _ _ _
    (exUserFlowFull_wf 0 1) exUserFlowRows_wf ct.disk ct.pandora ct.keeps ct.offset cfg cfg' h1 h2
  obtain ⟨f2, _, f1, _, o2, o1, z2, z1, pix⟩ := C155_steps_flow_partial _ _ _ _ _ _ _ _ _ _ _ _ _ _ _ 6 6 _ _ _ _ _ _ _ _ _ _ _ _ _
    exUserFlowRows_wf (exUserFlowFull_wf 0 1) ct.disk ct.pandora ct.keeps ct.offset cfg' cfg h2 h1
  obtain ⟨f3, _, o3, e⟩ := exBump_pixel cfg h1
  have e1 := o.symm.trans o1
  have e2 := o'.symm.trans o2
  have e3 := o1.symm.trans o3
  simp only [List.cons.injEq, Written.rasters.injEq] at e1 e2 e3
  obtain ⟨rfl, -⟩ := e1
  obtain ⟨rfl, -⟩ := e2
  obtain ⟨rfl, -⟩ := e3
  have q := (pix 2 2 4 2 4 2 rfl rfl rfl rfl (by decide) (by decide)).2.2 (by
    rintro ⟨⟨-, k, k1, k2⟩, -⟩
    have : k ≠ 0 := by
      rintro rfl
      simp at k1
    push_cast at k2
    omega)
  have v := (key 4 2 2 2 (((z1 _ List.mem_cons_self).1 4).2 (by decide)) (((z1 _ List.mem_cons_self).2 2).2 (by decide))
    (((z2 _ List.mem_cons_self).1 2).2 (by decide)) (((z2 _ List.mem_cons_self).2 2).2 (by decide)) rfl rfl).1
  rw [e, q.1] at v
  simp at v

end Verif.Props
