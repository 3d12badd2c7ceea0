import Verif.Spec.Usable
import Verif.Props.Values
import Verif.Props.Agreement

/-!
# C103: the pixels which receive a disparity
-/

namespace Verif.Props

open Verif Verif.Config Verif.Machine Verif.ImgTools Verif.MatchingCost Verif.Disparity Verif.Run Verif.Main Verif.Spec Verif.Save
  Verif.Statistics

set_option linter.unusedSectionVars false

variable {K : Type} [Field K] [LinearOrder K] [IsStrictOrderedRing K] [FloorRing K]

/-- Pandora keeps the cost of a window between whole pixels exactly when the two windows can be compared. -/
theorem window_ok_whole {hw : Nat} {left right : Img K} (hnd : right.noData ≠ .nan) {a b : Nat} {dr dc : Int} {gmin gmax : Arr2 Int}
    (hg : gmin.get a b ≤ dc ∧ dc ≤ gmax.get a b) :
    Pandora.windowOk hw left (shiftDispRow right dr) gmin gmax a b ((dc : Int) : K) ↔ Comparable hw left right a b dr dc := by
  have hxc : ((b : Nat) : K) + ((dc : Int) : K) = (((b : Int) + dc : Int) : K) := by push_cast; rfl
  have heq : F.eq right.noData right.noData = true := by
    cases h : right.noData <;> simp_all [F.eq]
  have hflag : ∀ x y, Pandora.noDataAt (shiftDispRow right dr) x y = F.eq ((shiftDispRow right dr).im x y) right.noData := by
    intro x y
    unfold Pandora.noDataAt shiftDispRow
    simp only
    split_ifs <;> simp_all
  have hout : ∀ x y : Nat, ¬ (0 ≤ (x : Int) + dr ∧ (x : Int) + dr < right.h) → Pandora.noDataAt (shiftDispRow right dr) x y = true := by
    intro x y h
    rw [hflag]
    unfold shiftDispRow
    simp only
    rw [if_neg h, heq]
  have hval : ∀ x y : Nat, (0 ≤ (x : Int) + dr ∧ (x : Int) + dr < right.h) →
      (shiftDispRow right dr).im x y = right.im ((x : Int) + dr).toNat y := by
    intro x y h
    unfold shiftDispRow
    simp only
    rw [if_pos h]
  unfold Pandora.windowOk
  rw [hxc, Int.floor_intCast, Int.ceil_intCast]
  have hw' : (shiftDispRow right dr).w = right.w := rfl
  rw [hw']
  constructor
  · rintro ⟨⟨b1, b2, b3, b4⟩, ⟨b5, b6⟩, -, b7, b8, b9, -, -⟩
    have hrow : ∀ x : Nat, a ≤ x + hw → x ≤ a + hw → 0 ≤ (x : Int) + dr ∧ (x : Int) + dr < right.h := by
      intro x h1 h2
      by_contra h
      have := b8 (x + hw - a) (by omega) ((b : Int) + dc).toNat (by omega) (by omega)
      rw [show a + (x + hw - a) - hw = x by omega, hout x _ h] at this
      simp at this
    refine ⟨⟨⟨b1, b2, b3, b4⟩, ?_⟩, ?_, b9, ?_⟩
    · have h1 := hrow (a - hw) (by omega) (by omega)
      have h2 := hrow (a + hw) (by omega) (by omega)
      omega
    · intro x y x1 x2 y1 y2
      have := b7 (x + hw - a) (by omega) (y + hw - b) (by omega)
      rwa [show a + (x + hw - a) - hw = x by omega, show b + (y + hw - b) - hw = y by omega] at this
    · intro x y x1 x2 y1 y2 he
      have h0 := hrow (a - hw) (by omega) (by omega)
      have h1 := hrow ((x : Int) - dr).toNat (by omega) (by omega)
      have := b8 ((x : Int) - dr + hw - a).toNat (by omega) y (by omega) (by omega)
      rw [show a + ((x : Int) - dr + hw - a).toNat - hw = ((x : Int) - dr).toNat by omega, hflag, hval _ _ h1,
        show ((((x : Int) - dr).toNat : Int) + dr).toNat = x by omega, he, heq] at this
      simp at this
  · rintro ⟨⟨⟨b1, b2, b3, b4⟩, b5, b6, b7, b8⟩, hl, hc, hr⟩
    refine ⟨⟨b1, b2, b3, b4⟩, ⟨b7, b8⟩, ⟨Int.cast_le.2 hg.1, Int.cast_le.2 hg.2⟩, fun x hx y hy => hl _ _ (by omega) (by omega) (by omega) (by omega),
      ?_, hc, ?_, ?_⟩
    · intro x hx y y1 y2
      have h1 : 0 ≤ ((a + x - hw : Nat) : Int) + dr ∧ ((a + x - hw : Nat) : Int) + dr < right.h := by omega
      rw [hflag, hval _ _ h1]
      have := hr (((a + x - hw : Nat) : Int) + dr).toNat y (by omega) (by omega) y1 y2
      rw [Bool.eq_false_iff]
      intro he
      refine this ?_
      revert he
      generalize right.im _ _ = u
      generalize right.noData = v at hnd
      cases u <;> cases v <;> simp [F.eq]
    all_goals
      unfold Pandora.invalidAt shiftDispRow
      simp only
      split_ifs <;> simp_all

/-- A window cost between whole pixels exists exactly when the two windows can be compared. -/
theorem window_exists {hw : Nat} {ker : List (F K × F K) → F K} (hk : FiniteKernel ker) {left right : Img K} (hnd : right.noData ≠ .nan)
    (hfl : FiniteData left) (hfr : ∀ r < right.h, ∀ c < right.w, right.im r c ≠ right.noData → ∃ k, right.im r c = .fin k)
    {a b : Nat} {dr dc : Int} {gmin gmax : Arr2 Int} (hg : gmin.get a b ≤ dc ∧ dc ≤ gmax.get a b) :
    Pandora.windowCost hw ker left (shiftDispRow right dr) gmin gmax a b ((dc : Int) : K) ≠ .nan ↔ Comparable hw left right a b dr dc := by
  have hval : ∀ x y : Nat, (0 ≤ (x : Int) + dr ∧ (x : Int) + dr < right.h) →
      (shiftDispRow right dr).im x y = right.im ((x : Int) + dr).toNat y := by
    intro x y h
    unfold shiftDispRow
    simp only
    rw [if_pos h]
  have hok : Pandora.windowOk hw left (shiftDispRow right dr) gmin gmax a b ((dc : Int) : K) ↔ Comparable hw left right a b dr dc :=
    window_ok_whole hnd hg
  unfold Pandora.windowCost
  constructor
  · intro h
    by_contra hn
    rw [if_neg fun q => hn (hok.1 q)] at h
    exact h rfl
  · intro h
    rw [if_pos (hok.2 h)]
    obtain ⟨⟨⟨b1, b2, b3, b4⟩, b5, b6, b7, b8⟩, hl, hc, hr⟩ := h
    refine hk _ fun p hp => ?_
    unfold Pandora.windowPairs at hp
    rw [List.mem_flatMap] at hp
    obtain ⟨x, hx, hp⟩ := hp
    rw [List.mem_map] at hp
    obtain ⟨y, hy, rfl⟩ := hp
    rw [List.mem_range] at hx hy
    obtain ⟨u, hu⟩ := hfl (a + x - hw) (by omega) (b + y - hw) (by omega) (hl _ _ (by omega) (by omega) (by omega) (by omega))
    have hpos : ((b : Nat) : K) + ((dc : Int) : K) + ((y : Nat) : K) - (hw : K) = (((b : Int) + dc + y - hw : Int) : K) := by push_cast; ring
    have hs : Pandora.sampleCol (shiftDispRow right dr) (a + x - hw) (((b : Nat) : K) + ((dc : Int) : K) + ((y : Nat) : K) - (hw : K)) =
        right.im (((a + x - hw : Nat) : Int) + dr).toNat ((b : Int) + dc + y - hw).toNat := by
      unfold Pandora.sampleCol
      rw [hpos, Int.fract_intCast, if_pos rfl, Int.floor_intCast, hval _ _ (by omega)]
    obtain ⟨v, hv⟩ := hfr (((a + x - hw : Nat) : Int) + dr).toNat (by omega) ((b : Int) + dc + y - hw).toNat (by omega)
      (hr _ _ (by omega) (by omega) (by omega) (by omega))
    exact ⟨u, v, by rw [hs, hu, hv]⟩

/-- C103 (part that holds): a pixel receives a disparity exactly when two windows can be compared. For every successful execution without
estimation nor refinement, with a window cost and disparities of whole pixels, every ROI inside the image or none, every steps and kind of
initial disparities: a pixel of the rasters has finite disparities in its intervals and a score when, for some pair of its intervals, the two
windows are inside the images read, without no-data, and the left centre is valid; otherwise it holds the invalid value three times.
Missing: the mask of the right image, which is not read (`C103_false`). -/
theorem C103_given_exactly_partial (w : World K) (user p0 mc inp l r : Fields) (out : List (Written K)) (H W : Nat) (dRow dCol : Disp)
    (rf rl cf cl : Int) (sr sc : Nat) (invalid : F K) (hw' : Nat) (me : Measure) (ker : List (F K × F K) → F K) (hw : user.wf)
    (hdisk : DiskContract w H W) (hpan : PandoraContract w) (hkeeps : PandoraKeeps w.pandora) (hk : FiniteKernel ker)
    (hu : user.get "pipeline" = some (.obj p0)) (he : p0.get "estimation" = none) (href : p0.get "refinement" = none)
    (hmc : p0.get "matching_cost" = some (.obj mc)) (hm : MatcherIs w mc 1 me (Pandora.windowCost hw' ker))
    (ask : Asks w user H W dRow dCol rf rl cf cl sr sc invalid) (hl : rl < H ∧ cl < W)
    (hi : user.get "input" = some (.obj inp)) (hleft : inp.get "left" = some (.obj l)) (hright : inp.get "right" = some (.obj r))
    (hdata : ∀ roi left right, ImagesRead w l r roi left right → FiniteData left ∧ right.noData ≠ .nan ∧
      ∀ x < right.h, ∀ y < right.w, right.im x y ≠ right.noData → ∃ k, right.im x y = .fin k)
    (h : Main.main w user = (out, none)) :
    ∃ files rest roi left right, out = .rasters files :: rest ∧ ImagesRead w l r roi left right ∧ ReadZone left roi H W rf rl cf cl ∧
      (roi = none ↔ user.get "ROI" = none) ∧
      (∀ i, i < files.row.h ↔ rf + (i : Int) * sr ≤ rl) ∧ (∀ j, j < files.row.w ↔ cf + (j : Int) * sc ≤ cl) ∧
      ∀ i < files.row.h, ∀ j < files.row.w, ∃ a b : Nat, rf + (i : Int) * sr = left.row0 + a ∧ cf + (j : Int) * sc = left.col0 + b ∧
        GivenExactly (Comparable hw' left right a b) dRow dCol (left.row0 + a) (left.col0 + b) invalid (files.row.values i j)
          (files.col.values i j) (files.score.values i j) := by
  obtain ⟨pl, mc', disp, a1, a2, a3, a4, a5⟩ := ask.steps
  rw [hu, Option.some.injEq, J.obj.injEq] at a1
  subst a1
  have hd : "disparity" ∈ p0.keys := (Fields.get_isSome p0 _).1 (by rw [a3]; rfl)
  obtain ⟨s⟩ := main_stages w user p0 out hw hpan hu hd h
  obtain ⟨hn, dRow', dCol', gmin, gmax, -, i1, i2, i3, i4, i5, -, -, -, i6⟩ := s.winner hdisk hkeeps hw hu ask.zone hl href hmc hm
  obtain ⟨-, -, -, -, -, z, -⟩ := s.inRange hdisk hw hu ask.zone hl href
  obtain ⟨j1, j2⟩ := i1 he
  obtain ⟨⟨rfl, rfl⟩, ⟨rfl, rfl⟩, rfl⟩ := s.asked hw hu he ask j1 j2
  have him := s.images hw hi hleft hright
  obtain ⟨hfl, hnd, hfr⟩ := hdata _ _ _ him
  have hz := z s.files.row List.mem_cons_self
  refine ⟨s.files, _, s.roi, s.left.img, s.right.img, s.outIs, him, i2, ?_, fun i => hz.rows i, fun j => hz.cols j, ?_⟩
  · have hR := s.roiFor
    cases hroi : s.roi with
    | none => rw [hroi] at hR; exact ⟨fun _ => hR, fun _ => rfl⟩
    | some R =>
      rw [hroi] at hR
      obtain ⟨v, hv, -⟩ := hR
      constructor
      · intro h; simp at h
      · intro h; rw [h] at hv; simp at hv
  intro i hi' j hj
  obtain ⟨⟨a, b, ha, hb, ea, eb⟩, key⟩ := i6 i hi' j hj
  refine ⟨a, b, by omega, by omega, ?_⟩
  rw [show rf + (i : Int) * s.plan.cfg.stepRow = s.left.img.row0 + a by omega,
    show cf + (j : Int) * s.plan.cfg.stepCol = s.left.img.col0 + b by omega,
    show (s.left.img.row0 + (a : Int) - s.left.img.row0).toNat = a by omega,
    show (s.left.img.col0 + (b : Int) - s.left.img.col0).toNat = b by omega] at key
  have hcost : ∀ dr dc : Int, InIntervals dRow dCol (s.left.img.row0 + a) (s.left.img.col0 + b) dr dc →
      (Pandora.windowCost hw' ker s.left.img (slabImg w.run.zoom s.right.img 1 ((dr : Int) : K)) gmin gmax a b ((dc : Int) : K) ≠ .nan ↔
        Comparable hw' s.left.img s.right.img a b dr dc) := by
    intro dr dc hint
    rw [slab_int]
    refine window_exists hk hnd hfl hfr ?_
    rw [i4 a ha b hb, i5 a ha b hb]
    have := hint.2
    omega
  have hwhole : ∀ x y : K, AskedPair dRow dCol 1 (s.left.img.row0 + (a : Int)) (s.left.img.col0 + (b : Int)) x y ↔
      ∃ dr dc : Int, x = ((dr : Int) : K) ∧ y = ((dc : Int) : K) ∧ InIntervals dRow dCol (s.left.img.row0 + a) (s.left.img.col0 + b) dr dc := by
    intro x y
    constructor
    · rintro ⟨⟨u, v, hx, hy⟩, hr, hc⟩
      rw [Nat.cast_one, mul_one] at hx hy
      subst hx hy
      exact ⟨u, v, rfl, rfl, ⟨Int.cast_le.1 hr.1, Int.cast_le.1 hr.2⟩, Int.cast_le.1 hc.1, Int.cast_le.1 hc.2⟩
    · rintro ⟨dr, dc, rfl, rfl, hint⟩
      exact ⟨⟨dr, dc, by push_cast; ring, by push_cast; ring⟩, ⟨Int.cast_le.2 hint.1.1, Int.cast_le.2 hint.1.2⟩,
        ⟨Int.cast_le.2 hint.2.1, Int.cast_le.2 hint.2.2⟩⟩
  constructor
  · rintro ⟨dr, dc, hint, hcomp⟩
    have hex : ∃ x y, AskedPair dRow dCol 1 (s.left.img.row0 + (a : Int)) (s.left.img.col0 + (b : Int)) x y ∧
        Pandora.windowCost hw' ker s.left.img (slabImg w.run.zoom s.right.img 1 x) gmin gmax a b y ≠ .nan :=
      ⟨_, _, (hwhole _ _).2 ⟨dr, dc, rfl, rfl, hint⟩, (hcost dr dc hint).2 hcomp⟩
    obtain ⟨x, y, e1, e2, ⟨y', p1, p2⟩, ⟨x', p3, p4⟩, -⟩ := key.smallest hex
    obtain ⟨dr1, dc1, rfl, -, k1⟩ := (hwhole _ _).1 p1
    obtain ⟨dr2, dc2, -, rfl, k2⟩ := (hwhole _ _).1 p3
    exact ⟨dr1, dc2, ⟨k1.1, k2.2⟩, e1, e2, (key.best hex).1.1⟩
  · intro hno
    refine key.invalid fun x y hxy => ?_
    obtain ⟨dr, dc, rfl, rfl, hint⟩ := (hwhole _ _).1 hxy
    by_contra hc
    exact hno dr dc hint ((hcost dr dc hint).1 hc)

/-- The full statement of C103: the mask of the right image counts too. -/
def C103Statement (K : Type) [Field K] [LinearOrder K] [IsStrictOrderedRing K] [FloorRing K] : Prop :=
  ∀ (w : World K) (user p0 mc inp l r : Fields) (out : List (Written K)) (H W : Nat) (dRow dCol : Disp)
    (rf rl cf cl : Int) (sr sc : Nat) (invalid : F K) (hw' : Nat) (me : Measure) (ker : List (F K × F K) → F K), user.wf →
    DiskContract w H W → PandoraContract w → PandoraKeeps w.pandora → FiniteKernel ker →
    user.get "pipeline" = some (.obj p0) → p0.get "estimation" = none → p0.get "refinement" = none →
    p0.get "matching_cost" = some (.obj mc) → MatcherIs w mc 1 me (Pandora.windowCost hw' ker) →
    Asks w user H W dRow dCol rf rl cf cl sr sc invalid → rl < H ∧ cl < W →
    user.get "input" = some (.obj inp) → inp.get "left" = some (.obj l) → inp.get "right" = some (.obj r) →
    (∀ roi left right, ImagesRead w l r roi left right → FiniteData left ∧ right.noData ≠ .nan ∧
      ∀ x < right.h, ∀ y < right.w, right.im x y ≠ right.noData → ∃ k, right.im x y = .fin k) →
    Main.main w user = (out, none) →
    ∃ files rest roi left right, out = .rasters files :: rest ∧ ImagesRead w l r roi left right ∧ ReadZone left roi H W rf rl cf cl ∧
      (roi = none ↔ user.get "ROI" = none) ∧
      ∀ i < files.row.h, ∀ j < files.row.w, ∃ a b : Nat, rf + (i : Int) * sr = left.row0 + a ∧ cf + (j : Int) * sc = left.col0 + b ∧
        GivenExactly (fun dr dc => Comparable hw' left right a b dr dc ∧ RightValid right a b dr dc) dRow dCol (left.row0 + a) (left.col0 + b)
          invalid (files.row.values i j) (files.col.values i j) (files.score.values i j)

/-! ## Example and counterexample -/

/-- The images of the example, all the pixels of the right one being declared invalid by its mask (`mask`) or not. -/
noncomputable def exWorldM (mask : Option (Nat → Nat → Int)) : World ℚ :=
  { exWorldV with files := { exWorldV.files with read := fun v roi =>
      let img := if isLeftSection v then { exLeftImg with h := 3 } else { exRightImg with h := 3, msk := mask }
      match roi with
      | none => .ok img
      | some R => .ok (cropImg img R) } }

theorem exWorldM_contract (mask : Option (Nat → Nat → Int)) : RunContract (exWorldM mask) 3 3 := by
  obtain ⟨⟨d1, d2, d3, d4, d5⟩, p, k, r, a, o, i, s⟩ := exWorldV_contract
  refine ⟨⟨d1, d2, d3, ?_, ?_⟩, ⟨p.1, p.2⟩, k, ?_, fun _ _ _ _ => rfl, o, i, s⟩
  · intro v img h
    simp only [exWorldM, Except.ok.injEq] at h
    subst h
    split_ifs <;> exact ⟨rfl, rfl, rfl, rfl⟩
  · intro v R img h h1 h2 h3
    simp only [exWorldM, Except.ok.injEq] at h
    subst h
    have key : ∀ i : Img ℚ, i.h = 3 → i.w = 3 → CropOk (cropImg i R) R 3 3 := by
      intro i hi hi'
      refine ⟨h1, h2, h3, rfl, rfl, ?_, ?_⟩
      · simp only [cropImg, hi]; push_cast at *; omega
      · simp only [cropImg, hi']; push_cast at *; omega
    split_ifs
    · exact key _ rfl rfl
    · exact key _ rfl rfl
  · intro inp l r _ _ _ roi _
    cases roi with
    | none => exact ⟨_, _, rfl, rfl⟩
    | some R => exact ⟨_, _, rfl, rfl⟩

theorem exWorldM_runs (mask : Option (Nat → Nat → Int)) :
    Main.main (exWorldM mask) (exUserSub 1 1 (.int 1)) = ((Main.main (exWorldM mask) (exUserSub 1 1 (.int 1))).1, none) := by
  have : (Main.main (exWorldM mask) (exUserSub 1 1 (.int 1))).2 = none := by
    obtain ⟨m, cfg, h⟩ := accepted_ok (w := exWorldP) (user := exUserSub 1 1 (.int 1)) (by decide +kernel)
    refine (C99_runs_exactly (exWorldM mask) _ _ _ cfg m 3 3 1 1 (exUserSub_wf _ _ _ (by simp [J.wf])) (exWorldM_contract mask) rfl ?_ rfl
      (.inl ⟨_, _, rfl, .inl rfl, .inl rfl⟩) rfl ⟨by decide, by decide⟩ (fun _ _ _ _ => ⟨_, _, rfl⟩) h).2 ⟨.inl ⟨rfl, rfl⟩, ?_⟩
    · simp [dict, Fields.keys]
    · intro f hf
      simp [dict, Fields.get] at hf
  exact Prod.ext rfl this

theorem exWorldM_asks (mask : Option (Nat → Nat → Int)) : Asks (exWorldM mask) (exUserSub 1 1 (.int 1)) 3 3 ⟨.const 1, 1⟩ ⟨.const 1, 1⟩
    0 (((3 : Nat) : Int) - 1) 0 (((3 : Nat) : Int) - 1) 1 1 .nan :=
  let a := exUserSub_int 1 1
  ⟨a.disparities, a.zone, a.steps⟩

theorem exWorldM_matcher (mask : Option (Nat → Nat → Int)) : MatcherIs (exWorldM mask) (exMc 1 1) 1 .min (Pandora.windowCost 0 sad) :=
  ⟨_, _, _, _, _, .int 1, rfl, rfl, rfl, .inl rfl, rfl, rfl⟩

/-- The sections of the two images of the example. -/
def exL : Fields := dict [("img", .str "left.tif")]
def exR : Fields := dict [("img", .str "right.tif"), ("nodata", .str "NaN")]

theorem exWorldM_data (mask : Option (Nat → Nat → Int)) (roi : Option Roi) (left right : Img ℚ)
    (h : ImagesRead (exWorldM mask) exL exR roi left right) : FiniteData left ∧ right.noData ≠ .nan ∧
      ∀ x < right.h, ∀ y < right.w, right.im x y ≠ right.noData → ∃ k, right.im x y = .fin k := by
  have key : ∀ v img, (exWorldM mask).files.read v roi = .ok img → img.noData = .fin (-1) ∧ ∀ x y, ∃ k, img.im x y = .fin k := by
    intro v img h
    simp only [exWorldM] at h
    cases roi <;> simp only [Except.ok.injEq] at h <;> subst h <;> split_ifs <;> exact ⟨rfl, fun _ _ => ⟨_, rfl⟩⟩
  obtain ⟨lj, rj, -, -, h1, h2⟩ := h
  refine ⟨fun x _ y _ _ => (key _ _ h1).2 x y, ?_, fun x _ y _ _ => (key _ _ h2).2 x y⟩
  rw [(key _ _ h2).1]
  simp

/-- The images read without ROI. -/
theorem exWorldM_images (mask : Option (Nat → Nat → Int)) (left right : Img ℚ) (h : ImagesRead (exWorldM mask) exL exR none left right) :
    left = { exLeftImg with h := 3 } ∧ right = { exRightImg with h := 3, msk := mask } := by
  obtain ⟨lj, rj, k1, k2, h1, h2⟩ := h
  have g1 := k1 "img" _ rfl rfl
  have g2 := k2 "img" _ rfl rfl
  simp only [exWorldM, Except.ok.injEq] at h1 h2
  have e1 : isLeftSection (.obj lj) = true := by simp [isLeftSection, g1, readValue]
  have e2 : isLeftSection (.obj rj) = false := by simp [isLeftSection, g2, readValue]
  rw [e1, if_pos rfl] at h1
  rw [e2, if_neg (by decide)] at h2
  exact ⟨h1.symm, h2.symm⟩

/-- The hypotheses of the partial C103 hold. -/
example (mask : Option (Nat → Nat → Int)) := C103_given_exactly_partial (exWorldM mask) (exUserSub 1 1 (.int 1)) _ (exMc 1 1) _ exL exR _ 3 3 _ _ _ _ _ _
  1 1 .nan 0 .min sad (exUserSub_wf _ _ _ (by simp [J.wf])) (exWorldM_contract mask).disk (exWorldM_contract mask).pandora
  (exWorldM_contract mask).keeps (sumOf_finite _) rfl rfl rfl rfl (exWorldM_matcher mask) (exWorldM_asks mask) ⟨by decide, by decide⟩ rfl rfl rfl
  (exWorldM_data mask) (exWorldM_runs mask)

/-- C103 is false: when the mask of the user declares invalid all the pixels of the right image, the first pixel has a disparity. -/
theorem C103_false : ¬ C103Statement ℚ := by
  intro hst
  obtain ⟨files, rest, roi, left, right, o1, i1, -, n1, hh, hw, key⟩ :=
    C103_given_exactly_partial (exWorldM (some fun _ _ => 2)) (exUserSub 1 1 (.int 1)) _ (exMc 1 1) _ exL exR _ 3 3 _ _ _ _ _ _
      1 1 .nan 0 .min sad (exUserSub_wf _ _ _ (by simp [J.wf])) (exWorldM_contract (some fun _ _ => 2)).disk (exWorldM_contract (some fun _ _ => 2)).pandora
      (exWorldM_contract (some fun _ _ => 2)).keeps (sumOf_finite _) rfl rfl rfl rfl (exWorldM_matcher (some fun _ _ => 2)) (exWorldM_asks (some fun _ _ => 2)) ⟨by decide, by decide⟩ rfl rfl rfl
      (exWorldM_data (some fun _ _ => 2)) (exWorldM_runs (some fun _ _ => 2))
  obtain ⟨files', rest', roi', left', right', o1', i1', -, n1', key'⟩ := hst (exWorldM (some fun _ _ => 2)) (exUserSub 1 1 (.int 1)) _ (exMc 1 1) _ exL exR _ 3 3
    _ _ _ _ _ _ 1 1 .nan 0 .min sad (exUserSub_wf _ _ _ (by simp [J.wf])) (exWorldM_contract _).disk (exWorldM_contract _).pandora
    (exWorldM_contract _).keeps (sumOf_finite _) rfl rfl rfl rfl (exWorldM_matcher _) (exWorldM_asks _) ⟨by decide, by decide⟩ rfl rfl rfl
    (exWorldM_data _) (exWorldM_runs _)
  rw [o1, List.cons.injEq, Written.rasters.injEq] at o1'
  obtain ⟨rfl, -⟩ := o1'
  rw [n1.2 rfl] at i1
  rw [n1'.2 rfl] at i1'
  obtain ⟨rfl, rfl⟩ := exWorldM_images _ _ _ i1
  obtain ⟨rfl, rfl⟩ := exWorldM_images _ _ _ i1'
  have h0 : 0 < files.row.h := (hh 0).2 (by decide)
  have w0 : 0 < files.row.w := (hw 0).2 (by decide)
  obtain ⟨a, b, ea, eb, g, -⟩ := key 0 h0 0 w0
  obtain ⟨a', b', ea', eb', -, g'⟩ := key' 0 h0 0 w0
  have za : a = 0 := by simp [exLeftImg] at ea; omega
  have zb : b = 0 := by simp [exLeftImg] at eb; omega
  have za' : a' = 0 := by simp [exLeftImg] at ea'; omega
  have zb' : b' = 0 := by simp [exLeftImg] at eb'; omega
  subst za zb za' zb'
  have hcomp : Comparable 0 { exLeftImg with h := 3 } { exRightImg with h := 3, msk := some fun _ _ => 2 } 0 0 1 0 := by
    refine ⟨by unfold BothInside; decide, fun _ _ _ _ _ _ => rfl, rfl, ?_⟩
    intro x y _ _ _ _
    have hx : x = 1 := by omega
    have hy : y = 0 := by omega
    subst hx hy
    simp [exRightImg]
  obtain ⟨dr, dc, -, e1, -⟩ := g ⟨1, 0, ⟨by decide, by decide⟩, hcomp⟩
  have := (g' fun dr dc hint hu => ?_).1
  · rw [e1] at this
    simp at this
  · obtain ⟨hr, hc⟩ := hint
    simp [initAt] at hr hc
    have := hu.2 dr.toNat dc.toNat (by omega) (by omega)
    simp [Pandora.invalidAt, exRightImg] at this

end Verif.Props
