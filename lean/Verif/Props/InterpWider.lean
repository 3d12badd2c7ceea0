import Verif.Props.NoDataLess
import Verif.Props.RefinedWider

/-!
# C153: larger intervals and the pixels without disparity after an interpolation
-/

namespace Verif.Props

open Verif Verif.Config Verif.Machine Verif.ImgTools Verif.MatchingCost Verif.Disparity Verif.Run Verif.Main Verif.Spec Verif.Save
  Verif.Statistics Verif.Interpolation

set_option linter.unusedSectionVars false

variable {K : Type} [Field K] [LinearOrder K] [IsStrictOrderedRing K] [FloorRing K]

/-- The disparities of all the pixels are in those of larger intervals. -/
theorem extent_nested {d d' : Disp} {left left' : Img K} {H W : Nat} {f l f' l' : Int} (hs : left.h = H ∧ left.w = W) (hs' : left'.h = H ∧ left'.w = W)
    (h0 : left.row0 = 0 ∧ left.col0 = 0) (h0' : left'.row0 = 0 ∧ left'.col0 = 0) (hn : Nested d d' H W) (e : Extent d left f l)
    (e' : Extent d' left' f' l') : f' ≤ f ∧ l ≤ l' := by
  obtain ⟨a, ha, b, hb, w1⟩ := e.reached
  obtain ⟨a2, ha2, b2, hb2, w2⟩ := e.reached'
  have i1 := e'.inside a (by omega) b (by omega)
  have i2 := e'.inside a2 (by omega) b2 (by omega)
  have n1 := hn a b (by omega) (by omega) (by omega) (by omega)
  have n2 := hn a2 b2 (by omega) (by omega) (by omega) (by omega)
  rw [h0.1, h0.2, zero_add, zero_add] at w1 w2
  rw [h0'.1, h0'.2, zero_add, zero_add] at i1 i2
  omega

/-- The elements of an axis are between its ends. -/
theorem lattice_between {c : Arr1 K} {x y : Int} {n : Nat} (h : FullLattice c x y n) {i : Nat} (hi : i < c.n) : (x : K) ≤ c.get i ∧ c.get i ≤ (y : K) := by
  constructor
  · rw [← h.first]
    by_cases h0 : i = 0
    · rw [h0]
    · exact (h.increasing 0 i (by omega) hi).le
  · rw [← h.last]
    by_cases h0 : i = c.n - 1
    · rw [h0]
    · exact (h.increasing i (c.n - 1) (by omega) (by omega)).le

/-- An element of an axis is in every larger axis. -/
theorem lattice_larger {c c' : Arr1 K} {x y x' y' : Int} {n : Nat} (hn : 0 < n) (h : FullLattice c x y n) (h' : FullLattice c' x' y' n)
    (hx : x' ≤ x) (hy : y ≤ y') {i : Nat} (hi : i < c.n) : ∃ i' < c'.n, c'.get i' = c.get i := by
  have h0 : (n : K) ≠ 0 := Nat.cast_ne_zero.2 (by omega)
  obtain ⟨k, hk⟩ := lattice_points hn h hi
  have e : (k : K) / (n : K) = c.get i := by rw [← hk, mul_div_cancel_right₀ _ h0]
  obtain ⟨lo, hi'⟩ := lattice_between h hi
  obtain ⟨i', q1, q2, -⟩ := h'.complete k (by rw [e]; exact (Int.cast_le.2 hx).trans lo) (by rw [e]; exact hi'.trans (Int.cast_le.2 hy))
  exact ⟨i', q1, q2.trans e⟩

theorem lattice_ends {c : Arr1 K} {x y : Int} {n : Nat} (h : FullLattice c x y n) : (x : K) ≤ (y : K) := by
  rw [← h.first, ← h.last]
  have := h.pos
  by_cases h0 : c.n - 1 = 0
  · rw [h0]
  · exact (h.increasing 0 (c.n - 1) (by omega) (by omega)).le

/-- C153, for larger intervals which are the same for all the pixels, as with integers. Two successful executions with an interpolation on the same full
images, without estimation, with the same subpixel factor and window cost, whatever their steps and their invalid values; the intervals of the first are
in those of the second. At each pixel they share, when the first gives a disparity the second gives a row disparity and a column disparity which are
numbers of its own intervals, widened by three. Missing: larger intervals which change with the pixel (`C153_false`). -/
theorem C153_wider_keeps_interpolated_partial (w : World K) (user user' p p' mc mc' inp inp' l r f f' : Fields) (out out' : List (Written K))
    (H W : Nat) (dRow dCol dRow' dCol' : Disp) (sr sc sr' sc' : Nat) (invalid invalid' : F K) (n hw : Nat) (me : Measure)
    (ker : List (F K × F K) → F K) (wf : user.wf) (wf' : user'.wf)
    (hdisk : DiskContract w H W) (hpan : PandoraContract w) (hkeeps : PandoraKeeps w.pandora) (hb : BoundsContract w.run.interp)
    (cfg : Interpolated w user p mc inp l r f H W dRow dCol sr sc invalid n hw me ker)
    (cfg' : Interpolated w user' p' mc' inp' l r f' H W dRow' dCol' sr' sc' invalid' n hw me ker)
    (hr : Nested dRow dRow' H W) (hc : Nested dCol dCol' H W) (hu : UniformDisp dRow' H W ∧ UniformDisp dCol' H W)
    (h : Main.main w user = (out, none)) (h' : Main.main w user' = (out', none)) :
    ∃ files rest files' rest', out = .rasters files :: rest ∧ out' = .rasters files' :: rest' ∧
      (∀ f ∈ [files.row, files.col, files.score], (∀ i, i < f.h ↔ i * sr < H) ∧ ∀ j, j < f.w ↔ j * sc < W) ∧
      (∀ f ∈ [files'.row, files'.col, files'.score], (∀ i, i < f.h ↔ i * sr' < H) ∧ ∀ j, j < f.w ↔ j * sc' < W) ∧
      ∀ i j i' j' a b : Nat, a = i * sr → a = i' * sr' → b = j * sc → b = j' * sc' → a < H → b < W → files.row.values i j ≠ .nan →
        ∃ x y : K, files'.row.values i' j' = .fin x ∧ files'.col.values i' j' = .fin y ∧
          (((initAt dRow' a b - dRow'.range - 3 : Int) : K) ≤ x ∧ x ≤ ((initAt dRow' a b + dRow'.range + 3 : Int) : K)) ∧
          ((initAt dCol' a b - dCol'.range - 3 : Int) : K) ≤ y ∧ y ≤ ((initAt dCol' a b + dCol'.range + 3 : Int) : K) := by
  obtain ⟨s⟩ := interpolated_stages cfg wf hpan h
  obtain ⟨s'⟩ := interpolated_stages cfg' wf' hpan h'
  obtain ⟨hn, im, ⟨sl, sr1⟩, o, z, ax, ay, fr, lr, fc, lc, gmin, gmax, ⟨x1, x2⟩, ⟨fy, fx⟩, hg, key⟩ := s.interpolated cfg wf hdisk hkeeps hb
  obtain ⟨-, im', ⟨sl', sr1'⟩, o', z', ax', ay', fr', lr', fc', lc', gmin', gmax', ⟨x1', x2'⟩, ⟨fy', fx'⟩, hg', key'⟩ :=
    s'.interpolated cfg' wf' hdisk hkeeps hb
  obtain ⟨er, el⟩ := s.read_images s' cfg.full cfg'.full cfg.noEstimation cfg'.noEstimation cfg.input cfg'.input cfg.left cfg'.left
    cfg.right cfg'.right wf wf'
  refine ⟨s.files, _, s'.files, _, s.outIs, s'.outIs, z, z', fun i j i' j' a b ea ea' eb eb' ha hbW some => ?_⟩
  obtain ⟨r0, c0, s0, -, p1⟩ := key i j a b ea eb ha hbW
  obtain ⟨r1, c1, s1, -, p2⟩ := key' i' j' a b ea' eb' ha hbW
  obtain ⟨g1, g2⟩ := hg a ha b hbW
  obtain ⟨g1', g2'⟩ := hg' a ha b hbW
  have ic := hc a b (by omega) (by omega) (by omega) (by omega)
  obtain ⟨n1, n2⟩ := extent_nested sl sl' o o' hr x1 x1'
  obtain ⟨n3, n4⟩ := extent_nested sl sl' o o' hc x2 x2'
  obtain ⟨m, hm, k, hk, cell⟩ : ∃ m < ax.n, ∃ k < ay.n, Pandora.windowCost hw ker s.left.img (slabImg w.run.zoom s.right.img n (ay.get k))
      gmin gmax a b (ax.get m) ≠ .nan := by
    by_contra hc
    push Not at hc
    exact some (p1.empty fun m hm k hk _ => hc m hm k hk).1
  obtain ⟨m', hm', em⟩ := lattice_larger hn fx fx' (by omega) (by omega) hm
  obtain ⟨k', hk', ek⟩ := lattice_larger hn fy fy' (by omega) (by omega) hk
  have hy : (gmin.get a b : K) ≤ ax.get m ∧ ax.get m ≤ (gmax.get a b : K) := by
    by_contra hc
    refine cell ?_
    unfold Pandora.windowCost
    rw [if_neg (fun q => hc q.2.2.1)]
  have hy' : (gmin'.get a b : K) ≤ ax.get m ∧ ax.get m ≤ (gmax'.get a b : K) :=
    ⟨(Int.cast_le.2 (by omega)).trans hy.1, hy.2.trans (Int.cast_le.2 (by omega))⟩
  have cell' : Pandora.windowCost hw ker s'.left.img (slabImg w.run.zoom s'.right.img n (ay'.get k')) gmin' gmax' a b (ax'.get m') ≠ .nan := by
    rw [em, ek, el, er, free_window (moved := slabImg w.run.zoom s.right.img n) hy']
    rw [free_window (moved := slabImg w.run.zoom s.right.img n) hy] at cell
    exact cell
  obtain ⟨_, surface, x, y, -, -, -, -, q1, q2, q3, -⟩ := p2.minimised
    ⟨m', hm', k', hk', ⟨uniform_read sl' o' hu.1 x1' ha hbW _, uniform_read sl' o' hu.2 x2' ha hbW _⟩, cell'⟩
  rw [fx'.first, fx'.last, fy'.first, fy'.last] at q1
  have i1 := x1'.inside a (by omega) b (by omega)
  have i2 := x2'.inside a (by omega) b (by omega)
  have bounds := hb surface (c1, r1) ((((fc' - 3 : Int) : K), ((lc' + 3 : Int) : K)), ((fr' - 3 : Int) : K), ((lr' + 3 : Int) : K))
    (lattice_ends fx') (lattice_ends fy')
  rw [q1] at bounds
  obtain ⟨t1, t2, t3, t4⟩ := bounds
  obtain ⟨u, hu1, v, hv1, w1⟩ := x1'.reached
  obtain ⟨u2, hu2, v2, hv2, w2⟩ := x1'.reached'
  obtain ⟨u3, hu3, v3, hv3, w3⟩ := x2'.reached
  obtain ⟨u4, hu4, v4, hv4, w4⟩ := x2'.reached'
  rw [o'.1, o'.2, zero_add, zero_add] at w1 w2 w3 w4
  rw [hu.1 u (by omega) v (by omega) a ha b hbW] at w1
  rw [hu.1 u2 (by omega) v2 (by omega) a ha b hbW] at w2
  rw [hu.2 u3 (by omega) v3 (by omega) a ha b hbW] at w3
  rw [hu.2 u4 (by omega) v4 (by omega) a ha b hbW] at w4
  rw [w1, w2, w3, w4]
  exact ⟨y, x, q3, q2, ⟨t3, t4⟩, t1, t2⟩

/-! ## Example and disagreement -/

/-- Row disparities around `v` and column disparities around `v'`, on the full images, with an interpolation. -/
def exUserSmoothIn (v v' : J) (k : Int) : Fields := dict [("input", .obj (dict [("left", .obj exL), ("right", .obj exR),
  ("row_disparity", .obj (dict [("init", v), ("range", .int k)])), ("col_disparity", .obj (dict [("init", v'), ("range", .int 1)]))])),
  ("pipeline", .obj (exPipeline none 1 1 (some exInterp)))]

theorem exUserSmoothIn_wf {v v' : J} (h : v.wf) (h' : v'.wf) (k : Int) : (exUserSmoothIn v v' k).wf := by
  simp [exUserSmoothIn, exL, exR, exPipeline, exInterp, dict, Fields.append, Fields.wf, J.wf, Fields.keys, h, h']

theorem exSmoothIn_cfg (l r : Img ℚ) {v v' : J} {i i' : Init} (k : Int)
    (hi : (∃ n, IsInt true v n ∧ i = .const n) ∨ ∃ s, v = .str s ∧ i = .grid (exGrids s))
    (hi' : (∃ n, IsInt true v' n ∧ i' = .const n) ∨ ∃ s, v' = .str s ∧ i' = .grid (exGrids s)) :
    ∃ p mc inp f, Interpolated (exWorldRow l r) (exUserSmoothIn v v' k) p mc inp exL exR f 6 6 ⟨i, k⟩ ⟨i', 1⟩ 1 1 .nan 1 1 .min sad :=
  ⟨_, _, _, _, rfl, rfl, rfl, rfl, rfl, rfl, rfl, rfl, rfl,
    ⟨_, _, _, _, _, .int 1, rfl, rfl, rfl, .inl rfl, rfl, rfl⟩,
    ⟨⟨_, rfl, ⟨_, _, _, rfl, rfl, rfl, .inl rfl, hi⟩, ⟨_, _, _, rfl, rfl, rfl, .inl rfl, hi'⟩⟩,
    .inr ⟨rfl, rfl, rfl, rfl, rfl⟩,
    ⟨_, _, _, rfl, rfl, rfl, .inl ⟨_, _, rfl, .inl rfl, .inl rfl⟩, .inl ⟨_, rfl, .inr (.inr (.inl ⟨rfl, rfl⟩))⟩⟩⟩⟩

theorem exSmoothIn_runs {l r : Img ℚ} (hl : exSized l) (hr : exSized r) {v v' : J} (hv : v.wf) (hv' : v'.wf) (k : Int)
    (hacc : accepted { exWorldSixF with env := exEnvRow } (exUserSmoothIn v v' k) = true) :
    Main.main (exWorldRow l r) (exUserSmoothIn v v' k) = ((Main.main (exWorldRow l r) (exUserSmoothIn v v' k)).1, none) := by
  have : (Main.main (exWorldRow l r) (exUserSmoothIn v v' k)).2 = none := by
    obtain ⟨m, cfg, h⟩ := accepted_ok hacc
    refine C81_accepted_runs_partial (exWorldRow l r) _ _ _ cfg m 6 6 0 5 0 5 1 1 (exUserSmoothIn_wf hv hv' k) (exWorldRow_contract hl hr) rfl
      (by simp [exPipeline, dict, Fields.append, Fields.keys])
      rfl (.inl ⟨_, _, rfl, .inl rfl, .inl rfl⟩) (.inr ⟨rfl, rfl, rfl, rfl, rfl⟩) (by omega) ?_ ?_ (.inl ⟨rfl, rfl⟩) h
    · intro he
      exact absurd rfl he
    · intro v hv
      have : v = exInterp := (Option.some.inj hv).symm
      subst this
      exact ⟨_, rfl, .inl rfl⟩
  exact Prod.ext rfl this

/-- Whatever the images: with the row disparity zero, then with those from minus two to two. -/
example (fl fr : Img ℚ) (hl : exSized fl) (hr : exSized fr) : ∃ files rest files' rest',
    Main.main (exWorldRow fl fr) (exUserSmoothIn (.int 0) (.int 0) 0) = (.rasters files :: rest, none) ∧
    Main.main (exWorldRow fl fr) (exUserSmoothIn (.int 0) (.int 0) 2) = (.rasters files' :: rest', none) ∧
    ∀ a < 6, ∀ b < 6, files.row.values a b ≠ .nan →
      ∃ x y : ℚ, files'.row.values a b = .fin x ∧ files'.col.values a b = .fin y ∧ (-5 ≤ x ∧ x ≤ 5) ∧ -4 ≤ y ∧ y ≤ 4 := by
  obtain ⟨_, _, _, _, cfg⟩ := exSmoothIn_cfg fl fr 0 (.inl ⟨0, .inl rfl, rfl⟩) (.inl ⟨0, .inl rfl, rfl⟩)
  obtain ⟨_, _, _, _, cfg'⟩ := exSmoothIn_cfg fl fr 2 (.inl ⟨0, .inl rfl, rfl⟩) (.inl ⟨0, .inl rfl, rfl⟩)
  have ct := exWorldRow_contract hl hr
  have wf0 : (J.int 0).wf := by simp [J.wf]
  have h1 := exSmoothIn_runs hl hr wf0 wf0 0 (by decide +kernel)
  have h2 := exSmoothIn_runs hl hr wf0 wf0 2 (by decide +kernel)
  obtain ⟨files, rest, files', rest', o, o', -, -, key⟩ :=
    C153_wider_keeps_interpolated_partial _ _ _ _ _ _ _ _ _ _ _ _ _ _ _ 6 6 _ _ _ _ _ _ _ _ _ _ _ _ _ _ (exUserSmoothIn_wf wf0 wf0 0)
    (exUserSmoothIn_wf wf0 wf0 2) ct.disk ct.pandora ct.keeps exI_bounds cfg cfg'
    (fun _ _ _ _ _ _ => by simp [initAt]) (fun _ _ _ _ _ _ => by simp) ⟨fun _ _ _ _ _ _ _ _ => rfl, fun _ _ _ _ _ _ _ _ => rfl⟩ h1 h2
  refine ⟨files, rest, files', rest', by rw [h1]; exact congrArg (·, none) o, by rw [h2]; exact congrArg (·, none) o', fun a ha b hb hne => ?_⟩
  obtain ⟨x, y, e1, e2, ⟨t1, t2⟩, t3, t4⟩ := key a b a b a b (by omega) (by omega) (by omega) (by omega) ha hb hne
  refine ⟨x, y, e1, e2, ⟨?_, ?_⟩, ?_, ?_⟩
  · refine le_trans (le_of_eq ?_) t1; norm_num [initAt]
  · refine le_trans t2 (le_of_eq ?_); norm_num [initAt]
  · refine le_trans (le_of_eq ?_) t3; norm_num [initAt]
  · refine le_trans t4 (le_of_eq ?_); norm_num [initAt]

/-- The statement without the condition on the larger intervals. -/
def C153Statement : Prop := ∀ (w : World ℚ) (user user' p p' mc mc' inp inp' l r f f' : Fields) (out out' : List (Written ℚ))
    (H W : Nat) (dRow dCol dRow' dCol' : Disp) (sr sc sr' sc' : Nat) (invalid invalid' : F ℚ) (n hw : Nat) (me : Measure)
    (ker : List (F ℚ × F ℚ) → F ℚ), user.wf → user'.wf →
    DiskContract w H W → PandoraContract w → PandoraKeeps w.pandora → BoundsContract w.run.interp →
    Interpolated w user p mc inp l r f H W dRow dCol sr sc invalid n hw me ker →
    Interpolated w user' p' mc' inp' l r f' H W dRow' dCol' sr' sc' invalid' n hw me ker →
    Nested dRow dRow' H W → Nested dCol dCol' H W →
    Main.main w user = (out, none) → Main.main w user' = (out', none) →
    ∃ files rest files' rest', out = .rasters files :: rest ∧ out' = .rasters files' :: rest' ∧
      ∀ i j i' j' a b : Nat, a = i * sr → a = i' * sr' → b = j * sc → b = j' * sc' → a < H → b < W → files.row.values i j ≠ .nan →
        files'.row.values i' j' ≠ .nan

/-- The right image, without data in its first three rows. -/
def exLow : Img ℚ := exHoled (.fin 9) (fun x _ => decide (x < 3)) fun _ _ => .fin 0

/-- The only row displacement which puts the window of the pixel of row 1 and column 2 on data is three. -/
theorem exLow_cost (u v : Int) (h : wholeCost 1 sad exZeros exLow 1 2 u v ≠ .nan) : u = 3 := by
  unfold wholeCost at h
  by_cases q : Comparable 1 exZeros exLow 1 2 u v
  · obtain ⟨⟨-, q1, q2, q3, q4⟩, -, -, b4⟩ := q
    have e : exLow.h = 6 := rfl
    have e' : exLow.w = 6 := rfl
    rw [e] at q2
    rw [e'] at q4
    by_contra hu
    refine b4 u.toNat (2 + v).toNat (by omega) (by omega) (by omega) (by omega) ?_
    have : u.toNat < 3 := by omega
    simp [exLow, exHoled, exImgSix, this]
  · rw [if_neg q] at h
    exact absurd rfl h

theorem exLow_three : wholeCost 1 sad exZeros exLow 1 2 3 0 = .fin 0 := by
  unfold wholeCost
  rw [if_pos]
  · decide +kernel
  · refine ⟨?_, fun _ _ _ _ _ _ => rfl, rfl, fun x y h1 _ _ _ => ?_⟩
    · simp only [BothInside, exImgSix, exZeros, exLow, exHoled]
      omega
    · have : ¬ x < 3 := by omega
      simp only [exLow, exHoled, exImgSix, this, decide_false, Bool.false_eq_true, if_false, ne_eq, F.fin.injEq]
      norm_num

section
variable {i i' : Init} {k : Int} {p mc inp f : Fields} {user : Fields} {out : List (Written ℚ)}

/-- The pixel of row 1 and column 2 of an execution. -/
theorem exLow_pixel (hall : ∀ r c, initAt ⟨i', 1⟩ r c = 0)
    (cfg : Interpolated (exWorldRow exZeros exLow) user p mc inp exL exR f 6 6 ⟨i, k⟩ ⟨i', 1⟩ 1 1 .nan 1 1 .min sad)
    (wf : user.wf) (h : Main.main (exWorldRow exZeros exLow) user = (out, none)) :
    ∃ files rest fr lr, out = .rasters files :: rest ∧ Extent ⟨i, k⟩ exZeros fr lr ∧
      (3 ≤ lr + 3 → fr - 3 ≤ 3 → (ReadDisp ⟨i, k⟩ fr lr 1 2 (3 : ℚ) ↔ files.row.values 1 2 ≠ .nan)) := by
  have ct := exWorldRow_contract (l := exZeros) (r := exLow) ⟨⟨rfl, rfl⟩, rfl, rfl⟩ ⟨⟨rfl, rfl⟩, rfl, rfl⟩
  obtain ⟨s⟩ := interpolated_stages cfg wf ct.pandora h
  obtain ⟨-, im, -, o, -, ax, ay, fr, lr, fc, lc, gmin, gmax, ⟨x1, x2⟩, ⟨fy, fx⟩, hg, key⟩ := s.interpolated cfg wf ct.disk ct.keeps exI_bounds
  obtain ⟨el, er⟩ : s.left.img = exZeros ∧ s.right.img = exLow := exWorldImgs_images im
  rw [el, er] at key
  rw [el] at x1 x2
  refine ⟨s.files, _, fr, lr, s.outIs, x1, fun b1 b2 => ?_⟩
  obtain ⟨r0, c0, s0, -, pix⟩ := key 1 2 1 2 rfl rfl (by decide) (by decide)
  obtain ⟨g1, g2⟩ := hg 1 (by decide) 2 (by decide)
  rw [hall] at g1 g2
  have g1 : gmin.get 1 2 = -4 := g1
  have g2 : gmax.get 1 2 = 4 := g2
  obtain ⟨_, _, _, _, w1⟩ := x2.reached
  obtain ⟨_, _, _, _, w2⟩ := x2.reached'
  rw [hall] at w1 w2
  obtain rfl : fc = -1 := w1.symm
  obtain rfl : lc = 1 := w2.symm
  have cost : ∀ x y : Int, Pandora.windowCost 1 sad exZeros (slabImg (exWorldRow exZeros exLow).run.zoom exLow 1 (x : ℚ)) gmin gmax 1 2 (y : ℚ) ≠ .nan →
      x = 3 := by
    intro x y hne
    by_cases hy : gmin.get 1 2 ≤ y ∧ y ≤ gmax.get 1 2
    · rw [slab_int, window_whole (by simp [exLow, exHoled]) hy] at hne
      exact exLow_cost x y hne
    · refine absurd ?_ hne
      unfold Pandora.windowCost
      exact if_neg fun q => hy ⟨Int.cast_le.1 q.2.2.1.1, Int.cast_le.1 q.2.2.1.2⟩
  constructor
  · intro hr
    obtain ⟨m, hm, em, -⟩ := fx.complete 0 (by norm_num) (by norm_num)
    obtain ⟨n, hn, en, -⟩ := fy.complete 3 (by rw [Nat.cast_one, div_one]; exact_mod_cast b2) (by rw [Nat.cast_one, div_one]; exact_mod_cast b1)
    rw [Nat.cast_one, div_one] at em en
    have q1 : ReadDisp ⟨i', 1⟩ (-1) 1 ((1 : Nat) : Int) ((2 : Nat) : Int) (ax.get m) := .inl (by rw [em, hall]; norm_num)
    have q2 : Pandora.windowCost 1 sad exZeros (slabImg (exWorldRow exZeros exLow).run.zoom exLow 1 (ay.get n)) gmin gmax 1 2 (ax.get m) ≠ .nan := by
      rw [em, en, slab_int, window_whole (by simp [exLow, exHoled]) (by rw [g1, g2]; decide), exLow_three]
      simp
    obtain ⟨_, _, _, y, -, -, -, -, -, -, e, -⟩ := pix.minimised ⟨m, hm, n, hn, ⟨by rw [en]; exact_mod_cast hr, q1⟩, q2⟩
    rw [e]
    simp
  · intro hne
    by_contra hr
    refine hne (pix.empty fun m hm n hn q => ?_).1
    obtain ⟨kx, ex⟩ := lattice_points (by decide) fx hm
    obtain ⟨ky, ey⟩ := lattice_points (by decide) fy hn
    rw [Nat.cast_one, mul_one] at ex ey
    rw [ex, ey] at q ⊢
    by_contra hc
    obtain rfl := cost ky kx hc
    exact hr (by exact_mod_cast q.1)

end

/-- Larger intervals can lose the disparity of a pixel: with the row disparity zero the interpolation reads the costs from minus three to three; with the
row disparities from minus two to two around a grid which goes from minus two to two, the costs of the displacement three are not read at the pixels of
the middle of the grid. -/
theorem C153_false : ¬ C153Statement := by
  intro hst
  have s1 : exSized exZeros := ⟨⟨rfl, rfl⟩, rfl, rfl⟩
  have s2 : exSized exLow := ⟨⟨rfl, rfl⟩, rfl, rfl⟩
  obtain ⟨_, _, _, _, cfg⟩ := exSmoothIn_cfg exZeros exLow (v := .int 0) (v' := .int 0) 0 (.inl ⟨0, .inl rfl, rfl⟩) (.inl ⟨0, .inl rfl, rfl⟩)
  obtain ⟨_, _, _, _, cfg'⟩ := exSmoothIn_cfg exZeros exLow (v := .str "row.tif") (v' := .str "col.tif") 2 (.inr ⟨_, rfl, rfl⟩) (.inr ⟨_, rfl, rfl⟩)
  have ct := exWorldRow_contract s1 s2
  have wf := exUserSmoothIn_wf (v := .int 0) (v' := .int 0) trivial trivial 0
  have wf' := exUserSmoothIn_wf (v := .str "row.tif") (v' := .str "col.tif") trivial trivial 2
  have h1 := exSmoothIn_runs s1 s2 (v := .int 0) (v' := .int 0) trivial trivial 0 (by decide +kernel)
  have h2 := exSmoothIn_runs s1 s2 (v := .str "row.tif") (v' := .str "col.tif") trivial trivial 2 (by decide +kernel)
  obtain ⟨files, rest, files', rest', o, o', key⟩ := hst _ _ _ _ _ _ _ _ _ _ _ _ _ _ _ 6 6 _ _ _ _ _ _ _ _ _ _ _ _ _ _
    wf wf' ct.disk ct.pandora ct.keeps exI_bounds cfg cfg'
    (by
      intro a b q1 q2 q3 q4
      have : ∀ x y, -2 ≤ exGridRow.get x y ∧ exGridRow.get x y ≤ 2 := by
        intro x y
        simp only [exGridRow]
        split_ifs <;> omega
      have := this a.toNat b.toNat
      simp only [initAt, exGrids, if_true]
      omega)
    (fun _ _ _ _ _ _ => ⟨le_refl _, le_refl _⟩) h1 h2
  obtain ⟨f1, _, fr, lr, o1, x1, k1⟩ := exLow_pixel (fun _ _ => rfl) cfg wf h1
  obtain ⟨f2, _, fr', lr', o2, x2, k2⟩ := exLow_pixel (fun _ _ => rfl) cfg' wf' h2
  rw [o1] at o
  rw [o2] at o'
  obtain ⟨rfl, -⟩ : f1 = files ∧ _ := by simpa using o
  obtain ⟨rfl, -⟩ : f2 = files' ∧ _ := by simpa using o'
  obtain ⟨_, _, _, _, w1⟩ := x1.reached
  obtain ⟨_, _, _, _, w2⟩ := x1.reached'
  obtain rfl : fr = 0 := w1.symm
  obtain rfl : lr = 0 := w2.symm
  have i1 := (x2.inside 0 (by decide) 0 (by decide)).1
  have i2 := (x2.inside 0 (by decide) 1 (by decide)).2
  have i1 : fr' ≤ -4 := i1
  have i2 : 4 ≤ lr' := i2
  have n1 := (k1 (by omega) (by omega)).1 (.inr (.inr (by norm_num)))
  have n2 := (k2 (by omega) (by omega)).2 (key 1 2 1 2 1 2 rfl rfl rfl rfl (by decide) (by decide) n1)
  have e : initAt ⟨.grid (exGrids "row.tif"), 2⟩ 1 2 = 0 := by decide
  rcases n2 with ⟨-, q⟩ | q | q
  · rw [e] at q; norm_num at q
  · have : (fr' : ℚ) ≤ -4 := by exact_mod_cast i1
    linarith
  · have : (4 : ℚ) ≤ lr' := by exact_mod_cast i2
    linarith

end Verif.Props
