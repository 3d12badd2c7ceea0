import Verif.Props.FlowSteps
import Verif.Props.InterpInvalid

/-!
# C159: the invalid value and the disparities given by an optical flow
-/

namespace Verif.Props

open Verif Verif.Config Verif.Machine Verif.ImgTools Verif.MatchingCost Verif.Disparity Verif.Run Verif.Main Verif.Spec Verif.Save
  Verif.Statistics Verif.OpticalFlow

set_option linter.unusedSectionVars false

variable {K : Type} [Field K] [LinearOrder K] [IsStrictOrderedRing K] [FloorRing K]

/-- The same value, or each invalid value. -/
def Marked (invalid invalid' v v' : F K) : Prop := v' = v ∨ (v = invalid ∧ v' = invalid')

/-- The least squares give a motion from this window of the left image, whatever the window of the right image. -/
def Solvable (e : Ext K) (left : Win K) : Prop := ∀ right, e.lstsq (gradMatrix left) (timeMatrix left right) ≠ none

theorem lucas_solvable {e : Ext K} {left : Win K} (h : Solvable e left) (invalid invalid' : F K) (right : Win K) :
    lucasKanade e invalid' left right = lucasKanade e invalid left right := by
  have := h right
  unfold lucasKanade
  cases q : e.lstsq (gradMatrix left) (timeMatrix left right) with
  | none => exact absurd q this
  | some m => rfl

theorem trajectory_solvable {e : Ext K} {left : Win K} (h : Solvable e left) (invalid invalid' : F K) (it : Nat) (right : Win K) (d : F K × F K) :
    trajectory (lucasKanade e invalid') e.warp left it right d = trajectory (lucasKanade e invalid) e.warp left it right d := by
  induction it generalizing right d with
  | zero => rfl
  | succ it ih =>
    simp only [trajectory, lucas_solvable h invalid invalid' right]
    split
    · exact ih _ _
    · rfl

theorem startShift_other {invalid invalid' : F K} {x : K} {s : Int} (h : StartShift invalid (.fin x) s) (h1 : invalid ≠ .fin x)
    (h2 : invalid' ≠ .fin x) : StartShift invalid' (.fin x) s := by
  rcases h with ⟨-, q | q⟩ | ⟨y, e, -, q⟩
  · exact absurd q (by simp)
  · exact absurd q.symm h1
  · exact .inr ⟨y, e, Ne.symm h2, q⟩

theorem insideOr_marked (invalid invalid' : F K) (lo hi : Int) (x : F K) : Marked invalid invalid' (insideOr invalid lo hi x) (insideOr invalid' lo hi x) := by
  unfold insideOr
  split
  · exact .inr ⟨rfl, rfl⟩
  · exact .inl rfl

/-- C159, where the flow starts from a pair of the intervals which is not an invalid value. Two successful executions with an optical flow on the same full
images, without estimation, with the same intervals, steps, subpixel factor, window cost, half window and iterations, whatever their invalid values. At each
pixel the scores are the same, or each is its invalid value. When one score is not its invalid value, the least squares give a motion for the window of the left
image and no invalid value is a number of the intervals of the pixel, the row disparities are the same, or each is its invalid value, and so are the
column disparities. Missing: the other pixels (`C159_false`). -/
theorem C159_invalid_flow_partial (w : World K) (user user' p p' mc mc' inp inp' l r f f' : Fields) (out out' : List (Written K))
    (H W : Nat) (dRow dCol : Disp) (sr sc : Nat) (invalid invalid' : F K) (n hw : Nat) (me : Measure) (ker : List (F K × F K) → F K) (it half : Nat)
    (wf : user.wf) (wf' : user'.wf)
    (hdisk : DiskContract w H W) (hpan : PandoraContract w) (hkeeps : PandoraKeeps w.pandora) (hoff : OffsetContract w)
    (cfg : Flowed w user p mc inp l r f H W dRow dCol sr sc invalid n hw me ker it half)
    (cfg' : Flowed w user' p' mc' inp' l r f' H W dRow dCol sr sc invalid' n hw me ker it half)
    (h : Main.main w user = (out, none)) (h' : Main.main w user' = (out', none)) :
    ∃ files rest files' rest' left right, out = .rasters files :: rest ∧ out' = .rasters files' :: rest' ∧ ImagesRead w l r none left right ∧
      (∀ f ∈ [files.row, files.col, files.score], (∀ i, i < f.h ↔ i * sr < H) ∧ ∀ j, j < f.w ↔ j * sc < W) ∧
      (∀ f ∈ [files'.row, files'.col, files'.score], (∀ i, i < f.h ↔ i * sr < H) ∧ ∀ j, j < f.w ↔ j * sc < W) ∧
      ∀ i j a b : Nat, a = i * sr → b = j * sc → a < H → b < W →
        Marked invalid invalid' (files.score.values i j) (files'.score.values i j) ∧
        (files.score.values i j ≠ invalid ∨ files'.score.values i j ≠ invalid' → Solvable w.run.flow (windowOf left half a b) →
          (∀ x : K, ((initAt dRow a b - dRow.range : Int) : K) ≤ x → x ≤ ((initAt dRow a b + dRow.range : Int) : K) →
            invalid ≠ .fin x ∧ invalid' ≠ .fin x) →
          (∀ y : K, ((initAt dCol a b - dCol.range : Int) : K) ≤ y → y ≤ ((initAt dCol a b + dCol.range : Int) : K) →
            invalid ≠ .fin y ∧ invalid' ≠ .fin y) →
          Marked invalid invalid' (files.row.values i j) (files'.row.values i j) ∧
            Marked invalid invalid' (files.col.values i j) (files'.col.values i j)) := by
  obtain ⟨s⟩ := flowed_stages cfg wf hpan h
  obtain ⟨s'⟩ := flowed_stages cfg' wf' hpan h'
  obtain ⟨-, im, -, -, z, key⟩ := s.flowRasters cfg wf hdisk hkeeps hoff
  obtain ⟨-, im', -, -, z', key'⟩ := s'.flowRasters cfg' wf' hdisk hkeeps hoff
  obtain ⟨er, el⟩ := s.flow_images s' cfg cfg' wf wf'
  rw [er, el] at key'
  refine ⟨s.files, _, s'.files, _, s.left.img, s.right.img, s.outIs, s'.outIs, im, z, z', fun i j a b ea eb ha hb => ?_⟩
  obtain ⟨gmin, gmax, g, r0, c0, b1, p1, q1⟩ :=
    key i (((z _ List.mem_cons_self).1 i).2 (by omega)) j (((z _ List.mem_cons_self).2 j).2 (by omega))
  obtain ⟨gmin', gmax', g', r1, c1, b2, p2, q2⟩ :=
    key' i (((z' _ List.mem_cons_self).1 i).2 (by omega)) j (((z' _ List.mem_cons_self).2 j).2 (by omega))
  rw [← ea, ← eb] at g b1 p1 q1 g' b2 p2 q2
  have costs : ∀ x y, AskedPair dRow dCol n (a : Int) (b : Int) x y →
      Pandora.windowCost hw ker s.left.img (slabImg w.run.zoom s.right.img n x) gmin' gmax' a b y =
      Pandora.windowCost hw ker s.left.img (slabImg w.run.zoom s.right.img n x) gmin gmax a b y := fun x y q =>
    (free_window (moved := slabImg w.run.zoom s.right.img n) (g' y q.2.2.1 q.2.2.2)).trans (free_window (g y q.2.2.1 q.2.2.2)).symm
  have b2 := best_congr costs b2
  by_cases hex : ∃ x y, AskedPair dRow dCol n (a : Int) (b : Int) x y ∧
      Pandora.windowCost hw ker s.left.img (slabImg w.run.zoom s.right.img n x) gmin gmax a b y ≠ .nan
  · obtain ⟨rfl, rfl, e3⟩ := BestPair.unique b1 (invalid := invalid) ⟨fun q => by
      obtain ⟨x, y, t1, t2⟩ := hex
      exact absurd (q x y t1) t2, b2.best, b2.smallest⟩
    refine ⟨.inl e3.symm, fun _ hs hr hc => ?_⟩
    obtain ⟨x, y, rfl, rfl, ⟨_, ⟨-, ⟨x1, x2⟩, -⟩, -⟩, ⟨_, ⟨-, -, y1, y2⟩, -⟩, -⟩ := b1.smallest hex
    by_cases hi : InnerPoint 0 H sr half (a : Int) ∧ InnerPoint 0 W sc half (b : Int)
    · obtain ⟨u, v, k1, k2, t, k3, k4, k5⟩ := p1 hi
      obtain ⟨u', v', k1', k2', t', k3', k4', k5'⟩ := p2 hi
      obtain ⟨m1, m2⟩ := hr x x1 x2
      obtain ⟨m3, m4⟩ := hc y y1 y2
      obtain rfl := startShift_unique (startShift_other k1 m1 m2) k1'
      obtain rfl := startShift_unique (startShift_other k2 m3 m4) k2'
      rw [trajectory_solvable hs invalid invalid', ← k3] at k3'
      rw [k4, k5, k4', k5', k3']
      exact ⟨insideOr_marked _ _ _ _ _, insideOr_marked _ _ _ _ _⟩
    · exact ⟨.inr ⟨(q1 hi).1, (q2 hi).1⟩, .inr ⟨(q1 hi).2, (q2 hi).2⟩⟩
  · have hex : ∀ x y, AskedPair dRow dCol n (a : Int) (b : Int) x y →
        Pandora.windowCost hw ker s.left.img (slabImg w.run.zoom s.right.img n x) gmin gmax a b y = .nan := fun x y q => by
      by_contra hc
      exact hex ⟨x, y, q, hc⟩
    have e1 := (b1.invalid hex).2.2
    have e2 := (b2.invalid hex).2.2
    exact ⟨.inr ⟨e1, e2⟩, fun q => q.elim (fun q => absurd e1 q) fun q => absurd e2 q⟩

/-! ## Example and disagreement -/

/-- Disparities from -3 to 3, an optical flow and the invalid value `v`. -/
def exUserFlowMark (v : Int) : Fields := dict [("input", .obj (exInputBox 0 3)), ("pipeline", .obj (dict [
  ("matching_cost", .obj (dict [("matching_cost_method", .str "zncc"), ("window_size", .int 3),
    ("step", .arr (.cons (.int 1) (.cons (.int 1) .nil)))])),
  ("disparity", .obj (dict [("disparity_method", .str "wta"), ("invalid_disparity", .int v)])), ("refinement", exFlow)]))]

theorem exUserFlowMark_wf (v : Int) : (exUserFlowMark v).wf := by
  simp [exUserFlowMark, exInputBox, exL, exR, exFlow, dict, Fields.wf, J.wf, Fields.keys]

theorem exFlowMark_cfg (l r : Img ℚ) (v : Int) :
    ∃ p mc inp f, Flowed (exWorldImgs l r) (exUserFlowMark v) p mc inp exL exR f 6 6 ⟨.const 0, 3⟩ ⟨.const 0, 3⟩ 1 1 (.fin (v : ℚ)) 1 1 .min sad 1 1 :=
  ⟨_, _, _, _, rfl, rfl, rfl, rfl, rfl, rfl, rfl, rfl, .inl ⟨_, rfl, .inl rfl⟩, rfl, ⟨_, _, _, _, rfl, .inl rfl⟩,
    ⟨_, _, _, _, _, .int 1, rfl, rfl, rfl, .inl rfl, rfl, rfl⟩,
    ⟨⟨_, rfl, ⟨_, _, _, rfl, rfl, rfl, .inl rfl, .inl ⟨_, .inl rfl, rfl⟩⟩, ⟨_, _, _, rfl, rfl, rfl, .inl rfl, .inl ⟨_, .inl rfl, rfl⟩⟩⟩,
    .inr ⟨rfl, rfl, rfl, rfl, rfl⟩,
    ⟨_, _, _, rfl, rfl, rfl, .inl ⟨_, _, rfl, .inl rfl, .inl rfl⟩, .inl ⟨_, rfl, .inl ⟨_, .inl rfl, rfl⟩⟩⟩⟩⟩

theorem exFlowMark_runs {l r : Img ℚ} (hl : exSized l) (hr : exSized r) (v : Int) (hacc : accepted exWorldSixF (exUserFlowMark v) = true) :
    Main.main (exWorldImgs l r) (exUserFlowMark v) = ((Main.main (exWorldImgs l r) (exUserFlowMark v)).1, none) := by
  have : (Main.main (exWorldImgs l r) (exUserFlowMark v)).2 = none := by
    obtain ⟨m, cfg, h⟩ := accepted_ok hacc
    refine C81_accepted_runs_partial (exWorldImgs l r) _ _ _ cfg m 6 6 0 5 0 5 1 1 (exUserFlowMark_wf v) (exWorldImgs_contract hl hr) rfl
      (by simp [dict, Fields.keys])
      rfl (.inl ⟨_, _, rfl, .inl rfl, .inl rfl⟩) (.inr ⟨rfl, rfl, rfl, rfl, rfl⟩) (by omega) ?_ ?_ (.inl ⟨rfl, rfl⟩) h
    · intro he
      exact absurd rfl he
    · intro v hv
      have : v = exFlow := (Option.some.inj hv).symm
      subst this
      refine ⟨_, rfl, .inr (.inr ⟨rfl, .inr ⟨rfl, rfl⟩, ?_⟩)⟩
      intro c st wn mar half hc hi
      obtain rfl : wn = .int 3 := mc_window (fun _ => rfl) hc
      have : half = 1 := by
        rcases hi with hi | ⟨-, ⟨hi, -⟩ | ⟨hi, -⟩⟩
        · simp only [J.int.injEq] at hi; omega
        · simp at hi
        · simp at hi
      subst this
      exact ⟨⟨1, 2, by omega⟩, ⟨1, 2, by decide⟩⟩
  exact Prod.ext rfl this

theorem eqsOf_left {A : List (F ℚ × F ℚ)} {B : List (F ℚ)} (h : A.length = B.length) (u : ℚ × ℚ → ℚ × ℚ) :
    ((eqsOf A B).map fun p => u p.1) = A.map fun a => u (amount a.1, amount a.2) := by
  unfold eqsOf
  rw [List.map_map]
  have e : ((A.zip B).map Prod.fst).map (fun a => u (amount a.1, amount a.2)) = A.map fun a => u (amount a.1, amount a.2) := by
    rw [List.map_fst_zip (by omega)]
  rw [← e, List.map_map]
  rfl

theorem exExt_solvable {win : Win ℚ}
    (h : dotOf ((gradMatrix win).map fun a => (amount a.1, amount a.1)) * dotOf ((gradMatrix win).map fun a => (amount a.2, amount a.2)) -
      dotOf ((gradMatrix win).map fun a => (amount a.1, amount a.2)) * dotOf ((gradMatrix win).map fun a => (amount a.1, amount a.2)) ≠ 0) :
    Solvable exExt win := by
  intro right
  have hl : (gradMatrix win).length = (timeMatrix win right).length := by simp [gradMatrix, timeMatrix]
  show normalSolution _ ≠ none
  unfold normalSolution
  rw [eqsOf_left hl fun q => (q.1, q.1), eqsOf_left hl fun q => (q.1, q.2), eqsOf_left hl fun q => (q.2, q.2)]
  simp only [h, if_false]
  simp

/-- Whatever the right image: with the invalid values 4 and -9999, outside the disparities from -3 to 3, the pixel of row 2 and column 3 has the same
refined disparities, or the invalid values, when it has a score. -/
example (g : Nat → Nat → F ℚ) : ∃ files rest files' rest',
    Main.main (exWorldImgs (exImgSix exBump) (exImgSix g)) (exUserFlowMark 4) = (.rasters files :: rest, none) ∧
    Main.main (exWorldImgs (exImgSix exBump) (exImgSix g)) (exUserFlowMark (-9999)) = (.rasters files' :: rest', none) ∧
    (∀ a b : Nat, a < 6 → b < 6 → Marked (.fin 4) (.fin (-9999)) (files.score.values a b) (files'.score.values a b)) ∧
    (files.score.values 2 3 ≠ .fin 4 → Marked (.fin 4) (.fin (-9999)) (files.row.values 2 3) (files'.row.values 2 3) ∧
      Marked (.fin 4) (.fin (-9999)) (files.col.values 2 3) (files'.col.values 2 3)) := by
  have sz : ∀ g, exSized (exImgSix g) := fun g => ⟨⟨rfl, rfl⟩, rfl, rfl⟩
  obtain ⟨_, _, _, _, cfg⟩ := exFlowMark_cfg (exImgSix exBump) (exImgSix g) 4
  obtain ⟨_, _, _, _, cfg'⟩ := exFlowMark_cfg (exImgSix exBump) (exImgSix g) (-9999)
  have ct := exWorldImgs_contract (sz exBump) (sz g)
  have h1 := exFlowMark_runs (sz exBump) (sz g) 4 (by decide +kernel)
  have h2 := exFlowMark_runs (sz exBump) (sz g) (-9999) (by decide +kernel)
  obtain ⟨files, rest, files', rest', left, right, o, o', i, -, -, key⟩ := C159_invalid_flow_partial _ _ _ _ _ _ _ _ _ _ _ _ _ _ _ 6 6
    _ _ _ _ _ _ _ _ _ _ _ _ (exUserFlowMark_wf _) (exUserFlowMark_wf _) ct.disk ct.pandora ct.keeps ct.offset cfg cfg' h1 h2
  obtain ⟨rfl, rfl⟩ := exWorldImgs_images i
  have e1 : (.fin ((4 : Int) : ℚ) : F ℚ) = .fin 4 := by norm_num
  have e2 : (.fin ((-9999 : Int) : ℚ) : F ℚ) = .fin (-9999) := by norm_num
  rw [e1, e2] at key
  have out : ∀ x : ℚ, (((0 : Int) - 3 : Int) : ℚ) ≤ x → x ≤ (((0 : Int) + 3 : Int) : ℚ) → (.fin 4 : F ℚ) ≠ .fin x ∧ (.fin (-9999) : F ℚ) ≠ .fin x := by
    intro x h1 h2
    norm_num at h1 h2
    simp only [ne_eq, F.fin.injEq]
    constructor <;> intro q <;> linarith
  refine ⟨files, rest, files', rest', by rw [h1]; exact congrArg (·, none) o, by rw [h2]; exact congrArg (·, none) o',
    fun a b ha hb => (key a b a b (by omega) (by omega) ha hb).1, fun q => ?_⟩
  refine (key 2 3 2 3 (by decide) (by decide) (by decide) (by decide)).2 (.inl q) ?_ out out
  have hflow : (exWorldImgs (exImgSix exBump) (exImgSix g)).run.flow = exExt := rfl
  rw [hflow]
  exact exExt_solvable (by decide +kernel)

/-- The image `exBump` one row below. -/
def exBumpDown (x y : Nat) : F ℚ := if x = 0 then .fin 1000 else exBump (x - 1) y

/-- The pixel of row 2 and column 2 is one row below in the right image. With the invalid value 1, the flow starts from its own place. -/
theorem exFlowMark_pixel (v : Int) (d : F ℚ) (hv : (v = 1 ∧ d = .fin 2) ∨ (v = -9999 ∧ d = .fin 1)) {p mc inp f : Fields} {out : List (Written ℚ)}
    (cfg : Flowed (exWorldImgs (exImgSix exBump) (exImgSix exBumpDown)) (exUserFlowMark v) p mc inp exL exR f 6 6 ⟨.const 0, 3⟩ ⟨.const 0, 3⟩ 1 1
      (.fin (v : ℚ)) 1 1 .min sad 1 1)
    (h : Main.main (exWorldImgs (exImgSix exBump) (exImgSix exBumpDown)) (exUserFlowMark v) = (out, none)) :
    ∃ files rest, out = .rasters files :: rest ∧ files.row.values 2 2 = d := by
  have sz : ∀ g, exSized (exImgSix g) := fun g => ⟨⟨rfl, rfl⟩, rfl, rfl⟩
  have ct := exWorldImgs_contract (sz exBump) (sz exBumpDown)
  obtain ⟨-, files, rest, left, right, o, im, -, -, z, key⟩ := flow_rasters cfg (exUserFlowMark_wf v) ct.disk ct.pandora ct.keeps ct.offset h
  obtain ⟨rfl, rfl⟩ := exWorldImgs_images im
  obtain ⟨y1, y2⟩ := z _ List.mem_cons_self
  refine ⟨files, rest, o, ?_⟩
  obtain ⟨gmin, gmax, g, r0, c0, b1, p1, -⟩ := key 2 ((y1 2).2 (by decide)) 2 ((y2 2).2 (by decide))
  have hg := g (((0 : Int)) : ℚ) (by simp [initAt]) (by simp [initAt])
  obtain ⟨-, t2⟩ := translated_best (left := exImgSix exBump) (right := exImgSix exBumpDown) (a := 2) (b := 2) (dr := 1) (dc := 0)
    sad_dissimilarity sad_onlyEqual b1 ⟨Int.cast_le.1 hg.1, Int.cast_le.1 hg.2⟩
    (by
      intro a b a' b' _ _ _ _ e1 e2
      obtain rfl : a' = a + 1 := by omega
      obtain rfl : b' = b := by omega
      simp [exImgSix, exLeftImg, exBumpDown])
    (by simp only [BothInside, exImgSix]; decide)
    (by
      refine ⟨fun x y _ _ _ _ => ⟨⟨_, rfl⟩, ?_, rfl⟩, rfl⟩
      simp only [exImgSix, exLeftImg, exBump, ne_eq, F.fin.injEq]
      have : (0 : ℚ) ≤ x := Nat.cast_nonneg x
      have : (0 : ℚ) ≤ y := Nat.cast_nonneg y
      have : (0 : ℚ) ≤ (x : ℚ) * y := by positivity
      intro h
      linarith)
    ⟨⟨by decide, by decide⟩, by decide, by decide⟩
  obtain ⟨rfl, rfl⟩ := t2 rfl (by
    rintro dr dc ⟨⟨h1, h2⟩, h3, h4⟩ hne
    refine ⟨2, 2, by decide, by decide, fun x y hx hy _ _ => ?_⟩
    have hx : (x : Int) = 2 + dr := hx
    have hy : (y : Int) = 2 + dc := hy
    simp only [initAt] at h1 h2 h3 h4
    have hne : ¬ (dr = 1 ∧ dc = 0) := fun q => hne (by rw [q.1, q.2])
    have l1 : x < 6 := by omega
    have l2 : y < 6 := by omega
    have l3 : ¬ (x = 3 ∧ y = 2) := by omega
    have : ∀ x < 6, ∀ y < 6, ¬ (x = 3 ∧ y = 2) → exBump 2 2 ≠ exBumpDown x y := by decide +kernel
    exact (this x l1 y l2 l3).symm)
  obtain ⟨sr, sc, s1, s2, t, rfl, e, -⟩ := p1 ⟨⟨⟨1, by decide, by decide⟩, 1, by decide, by decide⟩, ⟨1, by decide, by decide⟩, 1, by decide, by decide⟩
  have hflow : (exWorldImgs (exImgSix exBump) (exImgSix exBumpDown)).run.flow = exExt := rfl
  rw [hflow] at e
  rw [e]
  have s2 : StartShift (.nan : F ℚ) (.fin ((0 : Int) : ℚ)) sc :=
    startShift_other s2 (by rcases hv with ⟨rfl, -⟩ | ⟨rfl, -⟩ <;> simp) (by simp)
  obtain rfl := startShift_whole (K := ℚ) s2
  rcases hv with ⟨rfl, rfl⟩ | ⟨rfl, rfl⟩
  · rcases s1 with ⟨rfl, -⟩ | ⟨_, -, q, -⟩
    · decide +kernel
    · exact absurd rfl q
  · have s1 : StartShift (.nan : F ℚ) (.fin ((1 : Int) : ℚ)) sr := startShift_other s1 (by norm_num) (by simp)
    obtain rfl := startShift_whole (K := ℚ) s1
    decide +kernel

/-- The full statement: at every pixel the row disparities are the same, or each is its invalid value. -/
def C159Statement : Prop := ∀ (w : World ℚ) (user user' p p' mc mc' inp inp' l r f f' : Fields) (out out' : List (Written ℚ))
    (H W : Nat) (dRow dCol : Disp) (sr sc : Nat) (invalid invalid' : F ℚ) (n hw : Nat) (me : Measure) (ker : List (F ℚ × F ℚ) → F ℚ) (it half : Nat),
    user.wf → user'.wf → DiskContract w H W → PandoraContract w → PandoraKeeps w.pandora → OffsetContract w →
    Flowed w user p mc inp l r f H W dRow dCol sr sc invalid n hw me ker it half →
    Flowed w user' p' mc' inp' l r f' H W dRow dCol sr sc invalid' n hw me ker it half →
    Main.main w user = (out, none) → Main.main w user' = (out', none) →
    ∃ files rest files' rest', out = .rasters files :: rest ∧ out' = .rasters files' :: rest' ∧
      ∀ i j : Nat, i * sr < H → j * sc < W → Marked invalid invalid' (files.row.values i j) (files'.row.values i j)

/-- With the invalid value -9999 a pixel has its exact row disparity, 1; with the invalid value 1 it has the row disparity 2. -/
theorem C159_false : ¬ C159Statement := by
  intro hst
  have sz : ∀ g, exSized (exImgSix g) := fun g => ⟨⟨rfl, rfl⟩, rfl, rfl⟩
  obtain ⟨_, _, _, _, cfg⟩ := exFlowMark_cfg (exImgSix exBump) (exImgSix exBumpDown) 1
  obtain ⟨_, _, _, _, cfg'⟩ := exFlowMark_cfg (exImgSix exBump) (exImgSix exBumpDown) (-9999)
  have ct := exWorldImgs_contract (sz exBump) (sz exBumpDown)
  have h1 := exFlowMark_runs (sz exBump) (sz exBumpDown) 1 (by decide +kernel)
  have h2 := exFlowMark_runs (sz exBump) (sz exBumpDown) (-9999) (by decide +kernel)
  obtain ⟨files, rest, files', rest', o, o', key⟩ := hst _ _ _ _ _ _ _ _ _ _ _ _ _ _ _ 6 6 _ _ _ _ _ _ _ _ _ _ _ _
    (exUserFlowMark_wf _) (exUserFlowMark_wf _) ct.disk ct.pandora ct.keeps ct.offset cfg cfg' h1 h2
  obtain ⟨f1, _, o1, e1⟩ := exFlowMark_pixel 1 _ (.inl ⟨rfl, rfl⟩) cfg h1
  obtain ⟨f2, _, o2, e2⟩ := exFlowMark_pixel (-9999) _ (.inr ⟨rfl, rfl⟩) cfg' h2
  rw [o1] at o
  rw [o2] at o'
  obtain ⟨rfl, -⟩ : f1 = files ∧ _ := by simpa using o
  obtain ⟨rfl, -⟩ : f2 = files' ∧ _ := by simpa using o'
  have := key 2 2 (by decide) (by decide)
  rw [e1, e2] at this
  norm_num [Marked] at this

end Verif.Props
