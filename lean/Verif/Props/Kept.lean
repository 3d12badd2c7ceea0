import Verif.Props.Bowl
import Verif.Props.FlowMain
import Verif.Props.LeastSquares

/-!
# C124: a translation of whole pixels after a refinement
-/

namespace Verif.Props

open Verif Verif.Config Verif.Machine Verif.ImgTools Verif.MatchingCost Verif.Disparity Verif.Run Verif.Main Verif.Spec Verif.Save
  Verif.Statistics

set_option linter.unusedSectionVars false

variable {K : Type} [Field K] [LinearOrder K] [IsStrictOrderedRing K] [FloorRing K]

/-! ### Optical flow -/

theorem startShift_int {invalid : F K} {d s : Int} (hn : invalid ≠ .fin (d : K)) (hs : StartShift invalid (.fin (d : K)) s) : s = d := by
  rcases hs with ⟨-, hs | hs⟩ | ⟨y, hy, -, hi⟩
  · simp at hs
  · exact absurd hs.symm hn
  · obtain rfl := F.fin.inj hy
    exact intPart_int d s hi

theorem insideOr_kept {invalid : F K} {lo hi d : Int} (h1 : lo < d) (h2 : d < hi) : insideOr invalid lo hi (.fin (d : K)) = .fin (d : K) := by
  unfold insideOr
  rw [if_neg]
  have a1 : (lo : K) < d := by exact_mod_cast h1
  have a2 : (d : K) < hi := by exact_mod_cast h2
  simp only [F.le, decide_eq_true_eq, not_or, not_le]
  exact ⟨a1, a2⟩

/-- The trajectory of a pixel whose two windows are equal. -/
theorem flow_kept {e : OpticalFlow.Ext K} (he : LeastSquares e) (hz : ZeroShift e) {half it : Nat} (h1 : 1 ≤ half) {left right : Img K} {a b : Nat}
    {dr dc lor hir loc hic : Int} {invalid row col : F K} (h0 : right.row0 = left.row0 ∧ right.col0 = left.col0) (ht : Translated left right dr dc)
    (hb : BothInside half left right dr dc a b) (hcl : CleanWindow half left right.noData a b) (hr : lor < dr ∧ dr < hir) (hc : loc < dc ∧ dc < hic)
    (hi : invalid ≠ .fin (dr : K) ∧ invalid ≠ .fin (dc : K))
    (h : FlowPixel e half it left right (left.row0 + (a : Int)) (left.col0 + (b : Int)) lor hir loc hic invalid (.fin (dr : K)) (.fin (dc : K)) row col) :
    row = .fin (dr : K) ∧ col = .fin (dc : K) := by
  obtain ⟨sr, sc, q1, q2, t, rfl, q3, q4⟩ := h
  obtain rfl := startShift_int hi.1 q1
  obtain rfl := startShift_int hi.2 q2
  obtain ⟨⟨b1, b2, b3, b4⟩, b5, b6, b7, b8⟩ := hb
  have fits : Spec.WindowFits right half (left.row0 + a + sr) (left.col0 + b + sc) := by
    rw [Spec.WindowFits, h0.1, h0.2]
    omega
  have cell : ∀ i < 2 * half + 1, ∀ j < 2 * half + 1, ∃ v, (windowOf left half (left.row0 + a) (left.col0 + b)).get i j = .fin v ∧
      (windowOf right half (left.row0 + a + sr) (left.col0 + b + sc)).get i j = .fin v := by
    intro i hi' j hj
    simp only [windowOf, h0.1, h0.2]
    obtain ⟨⟨v, hv⟩, -, -⟩ := hcl.1 (left.row0 + a - half - left.row0 + i).toNat (left.col0 + b - half - left.col0 + j).toNat
      (by omega) (by omega) (by omega) (by omega)
    exact ⟨v, hv, (ht (left.row0 + a - half - left.row0 + i).toNat (left.col0 + b - half - left.col0 + j).toNat _ _ (by omega) (by omega) (by omega)
      (by omega) (by omega) (by omega)).trans hv⟩
  choose v hv using cell
  rw [rightWindow, if_pos fits] at q3 q4
  set L := windowOf left half (left.row0 + (a : Int)) (left.col0 + (b : Int)) with hL
  set R := windowOf right half (left.row0 + (a : Int) + sr) (left.col0 + (b : Int) + sc) with hR
  let v' : Nat → Nat → K := fun i j => if hi : i < 2 * half + 1 then if hj : j < 2 * half + 1 then v i hi j hj else 0 else 0
  have fl : FiniteWin L v' := by
    intro i hi j hj
    have hi' : i < 2 * half + 1 := hi
    have hj' : j < 2 * half + 1 := hj
    simp only [v', hi', hj', dif_pos]
    exact (hv i hi' j hj').1
  have fr : FiniteWin ⟨L.h, L.w, R.get⟩ v' := by
    intro i hi j hj
    have hi' : i < 2 * half + 1 := hi
    have hj' : j < 2 * half + 1 := hj
    simp only [v', hi', hj', dif_pos]
    exact (hv i hi' j hj').2
  have hh : 2 ≤ L.h := by show 2 ≤ 2 * half + 1; omega
  have hw : 2 ≤ L.w := by show 2 ≤ 2 * half + 1; omega
  rw [trajectory_fixed (invalid := invalid) he hz fl hh hw fr it _] at q3 q4
  rw [q3, q4]
  exact ⟨insideOr_kept hr.1 hr.2, insideOr_kept hc.1 hc.2⟩

theorem Stages.sameOrigin {w : World K} {user p0 : Fields} {out : List (Written K)} {H W : Nat} (s : Stages w user p0 out)
    (hdisk : DiskContract w H W) (hin : RoiInside s.roi H W) : s.right.img.row0 = s.left.img.row0 ∧ s.right.img.col0 = s.left.img.col0 := by
  obtain ⟨-, -, l, r, h1, h2, h3, h4⟩ := created_input s.datasets
  cases hr : s.roi with
  | none =>
    rw [hr] at h3 h4
    obtain ⟨a1, a2, -⟩ := hdisk.whole l _ h3
    obtain ⟨b1, b2, -⟩ := hdisk.whole r _ h4
    exact ⟨by omega, by omega⟩
  | some R =>
    have hf := s.roiFor
    rw [hr] at h3 h4 hf
    obtain ⟨v, -, -, b1, b2⟩ := hf
    obtain ⟨i1, i2⟩ := hin R hr
    have hc := hdisk.crop l R _ h3 (by omega) (by omega) b2
    have hc' := hdisk.crop r R _ h4 (by omega) (by omega) b2
    exact ⟨by rw [hc.row0, hc'.row0], by rw [hc.col0, hc'.col0]⟩

/-- C124 for an optical flow: with the subpixel factor one, a displacement of whole pixels found by the matching (C88) is kept by the optical flow
when it is strictly inside the intervals of the pixel and the pixel is at least half a window away from the border. -/
theorem C124_flow_keeps (w : World K) (user p0 mc inp l r f : Fields) (out : List (Written K)) (H W : Nat) (dRow dCol : Disp)
    (rf rl cf cl : Int) (sr sc : Nat) (invalid : F K) (half : Nat) (ker : List (F K × F K) → F K)
    (hw : user.wf) (hdisk : DiskContract w H W) (hpan : PandoraContract w) (hkeeps : PandoraKeeps w.pandora)
    (hoff : ∀ g v n, g.get "window_size" = some v → IsInt true v n → w.offset (.obj g) = ((n - 1) / 2).toNat)
    (hls : LeastSquares w.run.flow) (hzs : ZeroShift w.run.flow) (hk : Dissimilarity ker) (hk' : OnlyEqual ker)
    (hu : user.get "pipeline" = some (.obj p0)) (he : p0.get "estimation" = none)
    (href : p0.get "refinement" = some (.obj f)) (hm : f.get "refinement_method" = some (.str "optical_flow"))
    (hmc : p0.get "matching_cost" = some (.obj mc)) (hmat : MatcherIs w mc 1 .min (Pandora.windowCost half ker))
    (hhalf : HalfWindowIs w mc half) (ask : Asks w user H W dRow dCol rf rl cf cl sr sc invalid) (hl : rl < H ∧ cl < W)
    (hi : user.get "input" = some (.obj inp)) (hleft : inp.get "left" = some (.obj l)) (hright : inp.get "right" = some (.obj r))
    (h : Main.main w user = (out, none)) :
    ∃ files rest roi left right, out = .rasters files :: rest ∧ (roi = none ↔ user.get "ROI" = none) ∧ ImagesRead w l r roi left right ∧
      ReadZone left roi H W rf rl cf cl ∧
      (∀ f ∈ [files.row, files.col, files.score], (∀ i : Nat, i < f.h ↔ rf + (i : Int) * sr ≤ rl) ∧ ∀ j : Nat, j < f.w ↔ cf + (j : Int) * sc ≤ cl) ∧
      ∀ i < files.row.h, ∀ j < files.row.w, ∀ a b : Nat, rf + (i : Int) * sr = left.row0 + a → cf + (j : Int) * sc = left.col0 + b →
        InnerPoint left.row0 left.h sr half (left.row0 + a) → InnerPoint left.col0 left.w sc half (left.col0 + b) →
        ∀ dr dc : Int, Translated left right dr dc → BothInside half left right dr dc a b → CleanWindow half left right.noData a b →
          (initAt dRow (left.row0 + a) (left.col0 + b) - dRow.range < dr ∧ dr < initAt dRow (left.row0 + a) (left.col0 + b) + dRow.range) →
          (initAt dCol (left.row0 + a) (left.col0 + b) - dCol.range < dc ∧ dc < initAt dCol (left.row0 + a) (left.col0 + b) + dCol.range) →
          (∀ dr' dc', InIntervals dRow dCol (left.row0 + a) (left.col0 + b) dr' dc' → (dr', dc') ≠ (dr, dc) →
            WindowsDiffer half left right a b dr' dc') →
          invalid ≠ .fin (dr : K) ∧ invalid ≠ .fin (dc : K) →
          files.row.values i j = .fin (dr : K) ∧ files.col.values i j = .fin (dc : K) ∧ files.score.values i j = .fin 0 := by
  have hd : "disparity" ∈ p0.keys := by
    obtain ⟨pl, mc', disp, a1, a2, a3, -⟩ := ask.steps
    rw [hu, Option.some.injEq, J.obj.injEq] at a1
    subst a1
    exact (Fields.get_isSome _ _).1 (by rw [a3]; rfl)
  obtain ⟨s⟩ := main_stages w user p0 out hw hpan hu hd h
  obtain ⟨-, dRow', dCol', half', it', ml, mr, gmin, gmax, k2, k0, k1, -, i1, i2, -, i3, i4, i5, i6⟩ :=
    s.flowWinner hdisk hkeeps hoff hw hu ask.zone hl href hm hmc hmat
  obtain ⟨j1, j2⟩ := i1 he
  obtain ⟨⟨rfl, rfl⟩, ⟨rfl, rfl⟩, rfl⟩ := s.asked hw hu he ask j1 j2
  obtain rfl := half_unique hhalf k0
  obtain ⟨hin, hzone⟩ := s.zone hdisk ask.zone hl
  refine ⟨s.files, _, s.roi, s.left.img, s.right.img, s.outIs, roiFor_none s.roiFor, s.images hw hi hleft hright, i2, ?_, ?_⟩
  · exact fun f hf => ⟨(i3 f hf).rows, (i3 f hf).cols⟩
  intro i hi' j hj a b hra hcb n1 n2 dr dc ht hb hcl hr hc huniq hne
  obtain ⟨-, r0, c0, bp, -, -, fp, -⟩ := i6 i hi' j hj _ _ rfl rfl
  rw [hra, hcb] at bp fp
  rw [show (s.left.img.row0 + (a : Int) - s.left.img.row0).toNat = a by omega,
    show (s.left.img.col0 + (b : Int) - s.left.img.col0).toNat = b by omega] at bp
  have ha : a < s.left.img.h := by have := hb.1; omega
  have hbw : b < s.left.img.w := by have := hb.1; omega
  have hg : gmin.get a b ≤ dc ∧ dc ≤ gmax.get a b := by
    rw [i4 a ha b hbw, i5 a ha b hbw]
    omega
  obtain ⟨t1, t2⟩ := translated_best hk hk' bp hg ht hb hcl ⟨⟨by omega, by omega⟩, by omega, by omega⟩
  obtain ⟨rfl, rfl⟩ := t2 rfl huniq
  obtain ⟨t3, t4⟩ := flow_kept hls hzs k2 (s.sameOrigin hdisk hin) ht hb hcl hr hc hne (fp ⟨n1, n2⟩)
  exact ⟨t3, t4, t1⟩

/-! ### Dichotomy -/

/-- A search which only meets positive values around a null one does not move. -/
theorem path_kept {val : K → K → F K} {it k : Nat} {x y x' y' : K} {v' : F K}
    (hpos : ∀ x' y', |x' - x| ≤ 1 / 2 → |y' - y| ≤ 1 / 2 → (x', y') ≠ (x, y) → val x' y' = .nan ∨ ∃ v, val x' y' = .fin v ∧ 0 < v)
    (h : Path .min val it k x y (.fin 0) x' y' v') : x' = x ∧ y' = y ∧ v' = .fin 0 := by
  generalize hv : (F.fin 0 : F K) = v at h
  induction h with
  | stop h => exact ⟨rfl, rfl, rfl⟩
  | @move k x y v s x' y' v' h hs hp ih =>
    subst hv
    have hh : (0 : K) < 1 / 2 ^ (k + 1) := by positivity
    have hh' : (1 / 2 ^ (k + 1) : K) ≤ 1 / 2 := by
      apply one_div_le_one_div_of_le (by norm_num)
      rw [pow_succ]
      have : (1 : K) ≤ 2 ^ k := one_le_pow₀ (by norm_num)
      linarith
    have hs0 : s = (0, 0) := by
      by_contra hne
      obtain ⟨⟨a1, a2⟩, a3, a4⟩ := hs.around
      have small : ∀ t : Int, -1 ≤ t → t ≤ 1 → ∀ z : K, |z + (t : K) * (1 / 2 ^ (k + 1)) - z| ≤ 1 / 2 := by
        intro t t1 t2 z
        have b1 : (-1 : K) ≤ t := by exact_mod_cast t1
        have b2 : (t : K) ≤ 1 := by exact_mod_cast t2
        rw [add_sub_cancel_left, abs_mul, abs_of_pos hh]
        calc |(t : K)| * (1 / 2 ^ (k + 1)) ≤ 1 * (1 / 2 ^ (k + 1)) := mul_le_mul_of_nonneg_right (abs_le.2 ⟨b1, b2⟩) hh.le
          _ ≤ 1 / 2 := by rw [one_mul]; exact hh'
      have moved : (x + (s.1 : K) * (1 / 2 ^ (k + 1)), y + (s.2 : K) * (1 / 2 ^ (k + 1))) ≠ (x, y) := by
        intro e
        rw [Prod.mk.injEq] at e
        apply hne
        have e1 : (s.1 : K) * (1 / 2 ^ (k + 1)) = 0 := by linarith [e.1]
        have e2 : (s.2 : K) * (1 / 2 ^ (k + 1)) = 0 := by linarith [e.2]
        have f1 : (s.1 : K) = 0 := (mul_eq_zero.1 e1).resolve_right hh.ne'
        have f2 : (s.2 : K) = 0 := (mul_eq_zero.1 e2).resolve_right hh.ne'
        exact Prod.ext (by exact_mod_cast f1) (by exact_mod_cast f2)
      have ht : tried val (1 / 2 ^ (k + 1)) x y (.fin 0) s = val (x + (s.1 : K) * (1 / 2 ^ (k + 1))) (y + (s.2 : K) * (1 / 2 ^ (k + 1))) := by
        rw [tried, if_neg hne]
      have h0 : tried val (1 / 2 ^ (k + 1)) x y (.fin 0) (0, 0) = .fin 0 := by rw [tried, if_pos rfl]
      have best := hs.best (0, 0) ⟨⟨by decide, by decide⟩, by decide, by decide⟩ (by rw [h0]; simp)
      rw [h0, ht] at best
      have num := hs.number
      rw [ht] at num
      rcases hpos _ _ (small s.1 a1 a2 x) (small s.2 a3 a4 y) moved with e | ⟨v, e, hv⟩
      · exact num e
      · rw [e] at best
        have : v ≤ 0 := of_decide_eq_true best
        linarith
    subst hs0
    have e1 : x + ((0 : Int) : K) * (1 / 2 ^ (k + 1)) = x := by push_cast; ring
    have e2 : y + ((0 : Int) : K) * (1 / 2 ^ (k + 1)) = y := by push_cast; ring
    simp only [e1, e2] at ih
    exact ih hpos (by rw [tried, if_pos rfl])

/-- C124 for a dichotomy, what holds: a displacement of whole pixels found by the matching is kept, with the null score, when it is strictly inside
the intervals of the pixel and the costs interpolated at most half a pixel away from it are positive. -/
theorem C124_dichotomy_keeps_partial (w : World K) (user p0 mc inp l r f : Fields) (out : List (Written K)) (H W : Nat) (dRow dCol : Disp)
    (rf rl cf cl : Int) (sr sc : Nat) (invalid : F K) (it half : Nat) (ker : List (F K × F K) → F K) (g : Kernel K) (hw : user.wf)
    (hdisk : DiskContract w H W) (hpan : PandoraContract w) (hkeeps : PandoraKeeps w.pandora) (hk : Dissimilarity ker) (hk' : OnlyEqual ker)
    (hu : user.get "pipeline" = some (.obj p0)) (he : p0.get "estimation" = none) (href : p0.get "refinement" = some (.obj f))
    (hm : f.get "refinement_method" = some (.str "dichotomy")) (hit : IterationsIs f it) (hker : KernelIs w f it g)
    (hmc : p0.get "matching_cost" = some (.obj mc)) (hmat : MatcherIs w mc 1 .min (Pandora.windowCost half ker))
    (ask : Asks w user H W dRow dCol rf rl cf cl sr sc invalid) (hne : rf < rl ∧ rl < H ∧ cf < cl ∧ cl < W)
    (hi : user.get "input" = some (.obj inp)) (hleft : inp.get "left" = some (.obj l)) (hright : inp.get "right" = some (.obj r))
    (h : Main.main w user = (out, none)) :
    ∃ files rest roi left right gmin gmax, ∃ (fr lr fc lc : Int), out = .rasters files :: rest ∧
      (roi = none ↔ user.get "ROI" = none) ∧ ImagesRead w l r roi left right ∧ ReadZone left roi H W rf rl cf cl ∧
      (Extent dRow left fr lr ∧ Extent dCol left fc lc) ∧
      GridIs gmin left dCol (-dCol.range - g.before) ∧ GridIs gmax left dCol (dCol.range + (g.size - 1 - g.before : Nat)) ∧
      (∀ f ∈ [files.row, files.col, files.score], (∀ i : Nat, i < f.h ↔ rf + (i : Int) ≤ rl) ∧ ∀ j : Nat, j < f.w ↔ cf + (j : Int) ≤ cl) ∧
      ∀ i < files.row.h, ∀ j < files.row.w, ∀ a b : Nat, rf + (i : Int) = left.row0 + a → cf + (j : Int) = left.col0 + b →
        ∀ dr dc : Int, Translated left right dr dc → BothInside half left right dr dc a b → CleanWindow half left right.noData a b →
          (initAt dRow (left.row0 + a) (left.col0 + b) - dRow.range < dr ∧ dr < initAt dRow (left.row0 + a) (left.col0 + b) + dRow.range) →
          (initAt dCol (left.row0 + a) (left.col0 + b) - dCol.range < dc ∧ dc < initAt dCol (left.row0 + a) (left.col0 + b) + dCol.range) →
          (∀ dr' dc', InIntervals dRow dCol (left.row0 + a) (left.col0 + b) dr' dc' → (dr', dc') ≠ (dr, dc) →
            WindowsDiffer half left right a b dr' dc') →
          invalid ≠ .fin (dr : K) ∧ invalid ≠ .fin (dc : K) →
          (∀ cost : K → K → F K, (∀ x y : Int, cost x y = Pandora.windowCost half ker left (shiftDispRow right x) gmin gmax a b (y : K)) →
            ∀ x y : K, |x - dr| ≤ 1 / 2 → |y - dc| ≤ 1 / 2 → (x, y) ≠ ((dr : K), (dc : K)) →
            filtered g 1 (seen dRow dCol fr lr fc lc (left.row0 + a) (left.col0 + b) cost) x y = .nan ∨
            ∃ v, filtered g 1 (seen dRow dCol fr lr fc lc (left.row0 + a) (left.col0 + b) cost) x y = .fin v ∧ 0 < v) →
          files.row.values i j = .fin (dr : K) ∧ files.col.values i j = .fin (dc : K) ∧ files.score.values i j = .fin 0 := by
  have hd : "disparity" ∈ p0.keys := by
    obtain ⟨pl, mc', disp, a1, a2, a3, -⟩ := ask.steps
    rw [hu, Option.some.injEq, J.obj.injEq] at a1
    subst a1
    exact (Fields.get_isSome _ _).1 (by rw [a3]; rfl)
  obtain ⟨s⟩ := main_stages w user p0 out hw hpan hu hd h
  obtain ⟨hn, -, -, dRow', dCol', k, fr, lr, fc, lc, gmin, gmax, k1, -, i1, i2, i3, i4, i5, i6, iz, i7⟩ :=
    s.searchedWinner hdisk hkeeps hw hu ask.zone hne href hm hit hker hmc hmat
  obtain ⟨j1, j2⟩ := i1 he
  obtain ⟨⟨rfl, rfl⟩, -, rfl⟩ := s.asked hw hu he ask j1 j2
  refine ⟨s.files, _, s.roi, s.left.img, s.right.img, gmin, gmax, fr, lr, fc, lc, s.outIs, roiFor_none s.roiFor, s.images hw hi hleft hright, i2, i4,
    i5, i6, iz, ?_⟩
  intro i hi' j hj a b hra hcb dr dc ht hb hcl hr hc huniq hinv hpos
  obtain ⟨-, r0, c0, s0, cost, hcost, bp, sp⟩ := i7 i hi' j hj
  rw [hra, hcb] at bp sp hcost
  rw [show (s.left.img.row0 + (a : Int) - s.left.img.row0).toNat = a by omega,
    show (s.left.img.col0 + (b : Int) - s.left.img.col0).toNat = b by omega] at hcost
  have ha : a < s.left.img.h := by have := hb.1; omega
  have hbw : b < s.left.img.w := by have := hb.1; omega
  have hg : gmin.get a b ≤ dc ∧ dc ≤ gmax.get a b := by
    rw [i5 a ha b hbw, i6 a ha b hbw]
    omega
  obtain rfl : cost = fun x y => Pandora.windowCost half ker s.left.img (slabImg w.run.zoom s.right.img 1 x) gmin gmax a b y :=
    funext fun x => funext fun y => hcost x y
  obtain ⟨t1, t2⟩ := translated_best hk hk' bp hg ht hb hcl ⟨⟨by omega, by omega⟩, by omega, by omega⟩
  obtain ⟨rfl, rfl⟩ := t2 rfl huniq
  have hzero : Pandora.windowCost half ker s.left.img (slabImg w.run.zoom s.right.img 1 ((dr : Int) : K)) gmin gmax a b ((dc : Int) : K) = .fin 0 := by
    rw [slab_int]
    exact window_zero hk ht hb hcl hg
  have hin : ∀ {d : Disp} {z f l : Int}, Extent d s.left.img f l → initAt d (s.left.img.row0 + a) (s.left.img.col0 + b) - d.range < z →
      z < initAt d (s.left.img.row0 + a) (s.left.img.col0 + b) + d.range →
      ReadDisp d f l (s.left.img.row0 + a) (s.left.img.col0 + b) (z : K) := by
    intro d z f l _ z1 z2
    exact .inl ⟨by exact_mod_cast z1.le, by exact_mod_cast z2.le⟩
  have hseen : seen dRow dCol fr lr fc lc (s.left.img.row0 + a) (s.left.img.col0 + b)
      (fun x y => Pandora.windowCost half ker s.left.img (slabImg w.run.zoom s.right.img 1 x) gmin gmax a b y) (dr : K) (dc : K) = .fin 0 := by
    rw [seen, if_pos ⟨hin i4.1 hr.1 hr.2, hin i4.2 hc.1 hc.2⟩]
    exact hzero
  have notEnd : ∀ {lo hi d : Int}, lo < d → d < hi → ¬ AtEnd lo hi (.fin (d : K)) := by
    rintro lo hi d h1 h2 (e | e)
    · have := Int.cast_injective (α := K) (F.fin.inj e)
      omega
    · have := Int.cast_injective (α := K) (F.fin.inj e)
      omega
  obtain ⟨x', y', v', e1, e2, e3, path⟩ := sp.searched _ _ rfl rfl (Ne.symm hinv.1) (Ne.symm hinv.2)
    (fun e => e.elim (notEnd hr.1 hr.2) (notEnd hc.1 hc.2)) (by rw [hseen]; simp)
  rw [hseen] at path
  obtain ⟨rfl, rfl, rfl⟩ := path_kept (fun x y hx hy hxy => hpos _ (fun x y => by rw [slab_int]) x y hx hy hxy) path
  exact ⟨e1, e2, e3⟩

/-! ### Examples -/

/-- Two images of seven rows and columns, windows of `2 * half + 1` pixels compared by `sad`. -/
noncomputable def exWorldC (half : Nat) (fl fr : Nat → Nat → F ℚ) : World ℚ :=
  { exWorldOf half 7 with
    env := ⟨false, fun v => isStr v || decide (v = .null), isStr, fun _ => .ok ⟨1, 7, 7, some 1⟩, fun _ => none, fun _ => .ok (7, 7)⟩
    cost := fun _ => Pandora.windowCost half sad
    run := { exEnv with interp := exI, flow := ⟨exLstsq, fun w _ _ => w⟩ }
    files := ⟨fun v roi =>
      let img := if isLeftSection v then exImgB fl else exImgB fr
      match roi with
      | none => .ok img
      | some R => .ok (cropImg img R), fun _ => ⟨7, 7, fun _ _ => 0⟩⟩ }

theorem exWorldC_contract (half : Nat) (fl fr : Nat → Nat → F ℚ) : RunContract (exWorldC half fl fr) 7 7 := by
  obtain ⟨-, p, k, r, a, o, i, s⟩ := exWorldOf_contract half 7 (by decide)
  refine ⟨⟨by decide, ?_, ?_, ?_, ?_⟩, ⟨p.1, fun _ => windowCost_contract half sad sad_finite⟩, k, ?_, fun _ _ _ _ => rfl, o, i, s⟩
  · intro s g h
    simp only [exWorldC, Except.ok.injEq] at h
    subst h
    exact ⟨rfl, rfl⟩
  · intro v s h
    simp only [exWorldC, Except.ok.injEq] at h
    exact h.symm
  · intro v img h
    simp only [exWorldC, Except.ok.injEq] at h
    subst h
    split_ifs <;> exact ⟨rfl, rfl, rfl, rfl⟩
  · intro v R img h h1 h2 h3
    simp only [exWorldC, Except.ok.injEq] at h
    subst h
    have key : ∀ i : Img ℚ, i.h = 7 → i.w = 7 → CropOk (cropImg i R) R 7 7 := by
      intro i hi hi'
      refine ⟨h1, h2, h3, rfl, rfl, ?_, ?_⟩
      · simp only [cropImg, hi]; push_cast at *; omega
      · simp only [cropImg, hi']; push_cast at *; omega
    split_ifs
    · exact key _ rfl rfl
    · exact key _ rfl rfl
  · intro inp l r _ _ _ roi _
    cases roi with
    | none => exact ⟨_, _, rfl, rfl⟩
    | some R => exact ⟨_, _, rfl, rfl⟩

theorem exWorldC_images (half : Nat) (fl fr : Nat → Nat → F ℚ) (left right : Img ℚ) (h : ImagesRead (exWorldC half fl fr) exL exR none left right) :
    left = exImgB fl ∧ right = exImgB fr := by
  obtain ⟨lj, rj, k1, k2, h1, h2⟩ := h
  have g1 := k1 "img" _ rfl rfl
  have g2 := k2 "img" _ rfl rfl
  simp only [exWorldC, Except.ok.injEq] at h1 h2
  have e1 : isLeftSection (.obj lj) = true := by simp [isLeftSection, g1, readValue]
  have e2 : isLeftSection (.obj rj) = false := by simp [isLeftSection, g2, readValue]
  rw [e1, if_pos rfl] at h1
  rw [e2, if_neg (by decide)] at h2
  exact ⟨h1.symm, h2.symm⟩

theorem exWorldC_dichotomy (fl fr : Nat → Nat → F ℚ) :
    Main.main (exWorldC 0 fl fr) (exUserIt 1) = ((Main.main (exWorldC 0 fl fr) (exUserIt 1)).1, none) := by
  have : (Main.main (exWorldC 0 fl fr) (exUserIt 1)).2 = none := by
    obtain ⟨m, cfg, h⟩ := accepted_ok (w := { exWorldOf 0 7 with env := exWorldB.env, files := exWorldB.files })
      (user := exUserIt 1) (by decide +kernel)
    refine C81_accepted_runs_partial (exWorldC 0 fl fr) _ _ _ cfg m 7 7 0 6 0 6 1 1 (exUserIt_wf 1) (exWorldC_contract 0 fl fr) rfl (by decide) rfl
      (.inl ⟨_, _, rfl, .inl rfl, .inl rfl⟩) (.inr ⟨rfl, rfl, rfl, rfl, rfl⟩) (by decide) ?_ ?_ (.inl ⟨rfl, rfl⟩) h
    · intro he
      exact absurd rfl he
    · intro v hv
      have : v = exDichoOf 1 := (Option.some.inj hv).symm
      subst this
      exact ⟨_, rfl, .inr (.inl ⟨rfl, rfl, rfl⟩)⟩
  exact Prod.ext rfl this

abbrev exUserC : Fields := exUserWhole 1 1 (some exFlow) (some (.int 1))

theorem exUserC_wf : exUserC.wf := by
  simp [exUserWhole, exInput, exPipeline, exFlow, dict, Fields.append, Fields.wf, J.wf, Fields.keys]

theorem exWorldC_flow (fl fr : Nat → Nat → F ℚ) :
    Main.main (exWorldC 1 fl fr) exUserC = ((Main.main (exWorldC 1 fl fr) exUserC).1, none) := by
  have : (Main.main (exWorldC 1 fl fr) exUserC).2 = none := by
    obtain ⟨m, cfg, h⟩ := accepted_ok (w := { exWorldOf 1 7 with env := exWorldB.env, files := exWorldB.files })
      (user := exUserC) (by decide +kernel)
    refine C81_accepted_runs_partial (exWorldC 1 fl fr) _ _ _ cfg m 7 7 0 6 0 6 1 1 exUserC_wf (exWorldC_contract 1 fl fr) rfl (by decide) rfl
      (.inl ⟨_, _, rfl, .inl rfl, .inl rfl⟩) (.inr ⟨rfl, rfl, rfl, rfl, rfl⟩) (by decide) ?_ ?_ (.inl ⟨rfl, rfl⟩) h
    · intro he
      exact absurd rfl he
    · intro v hv
      have : v = exFlow := (Option.some.inj hv).symm
      subst this
      refine ⟨_, rfl, .inr (.inr ⟨rfl, .inl rfl, ?_⟩)⟩
      intro c st wn mar half hc hi
      have hw : wn = .int 3 := by
        have := congrArg (fun x => match x with | .ok (_, _, w, _) => w | .error _ => J.null) hc
        exact this.symm
      subst hw
      have : half = 1 := by
        rcases hi with hi | ⟨-, ⟨hi, -⟩ | ⟨hi, -⟩⟩
        · simp only [J.int.injEq] at hi; omega
        · simp at hi
        · simp at hi
      subst this
      exact ⟨⟨1, 2, by decide⟩, ⟨1, 2, by decide⟩⟩
  exact Prod.ext rfl this

/-- A left image of different values, and the same image displaced by one row and one column. -/
def exRamp (k : ℚ) (r c : Nat) : F ℚ := .fin (10 * r + c + k)

/-- The hypotheses of `C124_flow_keeps` hold for the pixel in the middle: its displacement of one row and one column is found and kept. -/
example : ∃ files rest, Main.main (exWorldC 1 (exRamp 20) (exRamp 9)) exUserC = (.rasters files :: rest, none) ∧
    files.row.values 3 3 = .fin 1 ∧ files.col.values 3 3 = .fin 1 ∧ files.score.values 3 3 = .fin 0 := by
  have ct := exWorldC_contract 1 (exRamp 20) (exRamp 9)
  have run := exWorldC_flow (exRamp 20) (exRamp 9)
  obtain ⟨files, rest, roi, left, right, o, hroi, im, zone, size, key⟩ :=
    C124_flow_keeps (exWorldC 1 (exRamp 20) (exRamp 9)) exUserC _ _ _ exL exR _ _ 7 7 ⟨.const 1, 1⟩ ⟨.const 1, 1⟩ 0 6 0 6 1 1 .nan 1 sad exUserC_wf
      ct.disk ct.pandora ct.keeps ct.offset (exLstsq_contract _) (fun _ _ _ _ h => h) sad_dissimilarity sad_onlyEqual rfl rfl rfl rfl rfl
      ⟨_, _, _, _, _, .int 1, rfl, rfl, rfl, .inl rfl, rfl, rfl⟩ ⟨_, _, _, _, rfl, .inl rfl⟩
      ⟨⟨_, rfl, ⟨_, _, _, rfl, rfl, rfl, .inl rfl, .inl ⟨_, .inl rfl, rfl⟩⟩, ⟨_, _, _, rfl, rfl, rfl, .inl rfl, .inl ⟨_, .inl rfl, rfl⟩⟩⟩,
        .inr ⟨rfl, rfl, rfl, rfl, rfl⟩,
        ⟨_, _, _, rfl, rfl, rfl, .inl ⟨_, _, rfl, .inl rfl, .inl rfl⟩, .inl ⟨_, rfl, .inr (.inr (.inl ⟨rfl, rfl⟩))⟩⟩⟩
      (by decide) rfl rfl rfl run
  obtain rfl := hroi.2 rfl
  obtain ⟨rfl, rfl⟩ := exWorldC_images _ _ _ _ _ im
  have hh : 3 < files.row.h := ((size files.row (by simp)).1 3).2 (by decide)
  have hw : 3 < files.row.w := ((size files.row (by simp)).2 3).2 (by decide)
  obtain ⟨k1, k2, k3⟩ := key 3 hh 3 hw 3 3 (by decide) (by decide) ⟨⟨1, by decide⟩, ⟨1, by decide⟩⟩ ⟨⟨1, by decide⟩, ⟨1, by decide⟩⟩ 1 1
    (by
      intro a b a' b' _ _ _ _ h1 h2
      have e1 : (a' : ℚ) = a + 1 := by exact_mod_cast h1
      have e2 : (b' : ℚ) = b + 1 := by exact_mod_cast h2
      simp only [exImgB, exRamp, F.fin.injEq]
      rw [e1, e2]
      ring)
    (by simp only [BothInside, exImgB]; decide)
    (by
      refine ⟨fun x y _ _ _ _ => ⟨⟨_, rfl⟩, ?_, rfl⟩, rfl⟩
      simp only [exImgB, exRamp, ne_eq, F.fin.injEq]
      have : (0 : ℚ) ≤ x := Nat.cast_nonneg x
      have : (0 : ℚ) ≤ y := Nat.cast_nonneg y
      intro h
      linarith)
    (by decide) (by decide)
    (by
      rintro dr dc ⟨⟨h1, h2⟩, h3, h4⟩ hne
      refine ⟨3, 3, by decide, by decide, fun x y hx hy _ _ => ?_⟩
      have e1 : (x : ℚ) = 3 + dr := by exact_mod_cast hx
      have e2 : (y : ℚ) = 3 + dc := by exact_mod_cast hy
      simp only [exImgB, exRamp, ne_eq, F.fin.injEq]
      rw [e1, e2]
      intro h
      have h5 : (10 : ℚ) * dr + dc = 11 := by push_cast at h; linarith
      have h6 : 10 * dr + dc = 11 := by exact_mod_cast h5
      simp only [initAt] at h1 h2 h3 h4
      apply hne
      rw [Prod.mk.injEq]
      omega)
    ⟨by simp, by simp⟩
  refine ⟨files, rest, by rw [run]; exact congrArg (·, none) o, ?_, ?_, k3⟩
  · rw [k1]; rfl
  · rw [k2]; rfl

/-- An image where the pixel at `(3, 3)` looks like the next one only. -/
def exPeak (r c : Nat) : ℚ := if r = 3 ∧ c = 3 then 0 else if r = 3 ∧ c = 4 then 1 else 100

theorem exPeak_nonneg (r c : Nat) : 0 ≤ exPeak r c := by
  unfold exPeak
  split_ifs <;> norm_num

/-- The costs of a null pixel `(3, 3)` are the values around it. -/
theorem centre_cost (p : Nat → Nat → ℚ) (p0 : p 3 3 = 0) (pos : ∀ r c, 0 ≤ p r c) (d : Img ℚ) (gmin gmax : Arr2 Int) (X Y : Int) (hX : -2 ≤ X ∧ X ≤ 2) (hY : -2 ≤ Y ∧ Y ≤ 2)
    (hd : Displaced d (exImgB fun r c => .fin (p r c)) X) (h1 : gmin.get 3 3 = -2) (h2 : gmax.get 3 3 = 3) :
    Pandora.windowCost 0 sad (exImgB fun r c => .fin (p r c)) d gmin gmax 3 3 (Y : ℚ) = .fin (p (3 + X).toNat (3 + Y).toNat) := by
  obtain ⟨y, hy⟩ : ∃ y : Nat, 3 + Y = y := ⟨(3 + Y).toNat, by omega⟩
  obtain ⟨x, hx⟩ : ∃ x : Nat, 3 + X = x := ⟨(3 + X).toNat, by omega⟩
  have ey : ((3 : Nat) : ℚ) + Y = ((y : Int) : ℚ) := by rw [← hy]; push_cast; ring
  have ex : ((3 : Nat) : ℚ) + X = (x : ℚ) + 0 := by rw [add_zero, ← Int.cast_natCast (R := ℚ) x, ← hx]; push_cast; ring
  have hx6 : ((3 : Nat) : ℚ) + X ≤ (((exImgB fun r c => .fin (p r c)).h - 1 : Nat) : ℚ) := by
    have : (X : ℚ) ≤ 2 := by exact_mod_cast hX.2
    simp only [exImgB]
    push_cast
    linarith
  have im : ∀ c < 7, d.im 3 c = .fin (p x c) := by
    intro c hc
    rw [(hd.samples 3 (show 3 < 7 by decide) c hc).1 x 0 le_rfl zero_lt_one ex hx6, lerpRow, if_pos rfl]
    rfl
  have nd : ∀ c < 7, Pandora.noDataAt d 3 c = false := by
    intro c hc
    rw [hd.flags, im c hc]
    simp only [exImgB, F.eq, decide_eq_false_iff_not]
    have := pos x c
    intro h
    linarith
  have ok : Pandora.windowOk 0 (exImgB fun r c => .fin (p r c)) d gmin gmax 3 3 (Y : ℚ) := by
    have hY1 : (-2 : ℚ) ≤ Y := by exact_mod_cast hY.1
    have hY2 : (Y : ℚ) ≤ 2 := by exact_mod_cast hY.2
    refine ⟨⟨by omega, show 3 + 0 < 7 by decide, by omega, show 3 + 0 < 7 by decide⟩, ?_, ⟨?_, ?_⟩, fun _ _ _ _ => rfl, ?_, rfl, hd.valid _ _, hd.valid _ _⟩
    · rw [ey, Int.floor_intCast, Int.ceil_intCast, hd.size.2]
      simp only [exImgB]
      omega
    · rw [h1]; push_cast; linarith
    · rw [h2]; push_cast; linarith
    · intro a ha z hz hz'
      rw [ey, Int.floor_intCast] at hz
      rw [ey, Int.ceil_intCast] at hz'
      obtain rfl : a = 0 := by omega
      exact nd z (by omega)
  rw [Pandora.windowCost, if_pos ok]
  have e : Pandora.windowPairs 0 (exImgB fun r c => .fin (p r c)) d 3 3 (((3 : Nat) : ℚ) + Y) = [(.fin 0, .fin (p x y))] := by
    rw [ey]
    simp [Pandora.windowPairs, Pandora.sampleCol, exImgB, im y (by omega)]
    exact p0
  rw [e, hx, hy]
  simp only [sad, sumOf, F.add, zero_sub, abs_neg, abs_of_nonneg (pos x y), Int.toNat_natCast, add_zero]

/-- The value interpolated half a pixel to the right is negative, whatever the costs elsewhere. -/
theorem exPeak_filtered (cost : ℚ → ℚ → F ℚ) (h : ∀ X Y : Int, (-2 ≤ X ∧ X ≤ 2) → (-2 ≤ Y ∧ Y ≤ 2) →
      cost (X : ℚ) (Y : ℚ) = .fin (exPeak (3 + X).toNat (3 + Y).toNat)) :
    filtered keysKernel 1 cost 0 (1 / 2) = .fin (-191 / 16) := by
  have fl : ⌊(1 / 2 : ℚ)⌋ = 0 := by norm_num
  have n1 : ∀ a : Nat, node keysKernel 1 (0 : ℚ) a = ((-1 + (a : Int) : Int) : ℚ) := by
    intro a
    simp only [node, keysKernel, Nat.cast_one, mul_one, div_one, Int.floor_zero]
    push_cast
    ring
  have n2 : ∀ a : Nat, node keysKernel 1 (1 / 2 : ℚ) a = ((-1 + (a : Int) : Int) : ℚ) := by
    intro a
    simp only [node, keysKernel, Nat.cast_one, mul_one, div_one, fl]
    push_cast
    ring
  have s4 : (keysKernel (K := ℚ)).size = 4 := rfl
  have c : ∀ a < 4, ∀ b < 4, cost (node keysKernel 1 (0 : ℚ) a) (node keysKernel 1 (1 / 2 : ℚ) b) = .fin (exPeak (2 + a) (2 + b)) := by
    intro a ha b hb
    rw [n1, n2, h _ _ (by omega) (by omega), show (3 + (-1 + (a : Int))).toNat = 2 + a by omega, show (3 + (-1 + (b : Int))).toNat = 2 + b by omega]
  unfold filtered
  rw [if_neg, s4]
  · congr 1
    have f1 : Int.fract ((0 : ℚ) * ((1 : Nat) : ℚ)) = 0 := by simp
    have f2 : Int.fract ((1 / 2 : ℚ) * ((1 : Nat) : ℚ)) = 1 / 2 := by
      rw [Nat.cast_one, mul_one, Int.fract, fl]; norm_num
    rw [f1, f2]
    have w1 : ∀ a < 4, (keysKernel (K := ℚ)).weight 0 a = if a = 1 then 1 else 0 := by decide +kernel
    have w2 : ∀ a < 4, (keysKernel (K := ℚ)).weight (1 / 2) a = if a = 1 ∨ a = 2 then 9 / 16 else -1 / 16 := by decide +kernel
    have e : ∀ a ∈ Finset.range 4, ∀ b ∈ Finset.range 4, (keysKernel (K := ℚ)).weight 0 a * (keysKernel (K := ℚ)).weight (1 / 2) b *
        amount (cost (node keysKernel 1 (0 : ℚ) a) (node keysKernel 1 (1 / 2 : ℚ) b)) =
        (if a = 1 then 1 else 0) * (if b = 1 ∨ b = 2 then 9 / 16 else -1 / 16) * exPeak (2 + a) (2 + b) := by
      intro a ha b hb
      rw [Finset.mem_range] at ha hb
      rw [w1 a ha, w2 b hb, c a ha b hb]
      rfl
    rw [Finset.sum_congr rfl fun a ha => Finset.sum_congr rfl fun b hb => e a ha b hb]
    simp only [Finset.sum_range_succ, Finset.sum_range_zero, exPeak]
    norm_num
  · rintro ⟨a, ha, b, hb, hx⟩
    rw [c a ha b hb] at hx
    simp at hx

/-- C124 is false for a dichotomy: on two equal images, where the window of a pixel differs from all the windows in its intervals, the disparities of
this pixel are not null after one iteration with the bicubic filter, and its score is negative although it is a sum of absolute differences. -/
theorem C124_dichotomy_moves : ∃ files rest left right,
    Main.main (exWorldC 0 (fun r c => .fin (exPeak r c)) (fun r c => .fin (exPeak r c))) (exUserIt 1) = (.rasters files :: rest, none) ∧
    ImagesRead (exWorldC 0 (fun r c => .fin (exPeak r c)) (fun r c => .fin (exPeak r c))) exL exR none left right ∧
    Translated left right 0 0 ∧ BothInside 0 left right 0 0 3 3 ∧ CleanWindow 0 left right.noData 3 3 ∧
    (∀ dr dc, InIntervals ⟨.const 0, 1⟩ ⟨.const 0, 1⟩ 3 3 dr dc → (dr, dc) ≠ (0, 0) → WindowsDiffer 0 left right 3 3 dr dc) ∧
    ¬ (files.row.values 3 3 = .fin 0 ∧ files.col.values 3 3 = .fin 0) ∧ ∃ v, files.score.values 3 3 = .fin v ∧ v < 0 := by
  set w := exWorldC 0 (fun r c => .fin (exPeak r c)) (fun r c => .fin (exPeak r c)) with hwd
  have ct : RunContract w 7 7 := exWorldC_contract 0 _ _
  have run : Main.main w (exUserIt 1) = ((Main.main w (exUserIt 1)).1, none) := exWorldC_dichotomy _ _
  obtain ⟨files, rest, roi, left, right, gmin, gmax, k, fr, lr, fc, lc, displaced, o, hk, hroi, im, zone, ext, g1, g2, hd, size, key⟩ :=
    C119_searched_files w (exUserIt 1) _ _ _ exL exR _ _ 7 7 ⟨.const 0, 1⟩ ⟨.const 0, 1⟩ 0 6 0 6 1 1 .nan 1 1 .min
      (Pandora.windowCost 0 sad) keysKernel (exUserIt_wf 1)
      ct.disk ct.pandora ct.keeps rfl rfl rfl rfl rfl ⟨_, 1, rfl, .inl rfl, by decide⟩ ⟨_, rfl, .inl ⟨rfl, rfl⟩⟩ rfl
      ⟨_, _, _, _, _, .int 1, rfl, rfl, rfl, .inl rfl, rfl, rfl⟩
      ⟨⟨_, rfl, ⟨_, _, _, rfl, rfl, rfl, .inl rfl, .inl ⟨_, .inl rfl, rfl⟩⟩, ⟨_, _, _, rfl, rfl, rfl, .inl rfl, .inl ⟨_, .inl rfl, rfl⟩⟩⟩,
        .inr ⟨rfl, rfl, rfl, rfl, rfl⟩,
        ⟨_, _, _, rfl, rfl, rfl, .inl ⟨_, _, rfl, .inl rfl, .inl rfl⟩, .inl ⟨_, rfl, .inr (.inr (.inl ⟨rfl, rfl⟩))⟩⟩⟩
      (by decide) rfl rfl rfl run
  obtain rfl := hroi.2 rfl
  have im' := im
  obtain ⟨rfl, rfl⟩ := exWorldC_images _ _ _ _ _ im
  have hk0 : k = 0 := by
    rcases k with _ | k
    · rfl
    · rw [pow_succ] at hk; omega
  subst hk0
  have hh : 3 < files.row.h := ((size files.row (by simp)).1 3).2 (by decide)
  have hw : 3 < files.row.w := ((size files.row (by simp)).2 3).2 (by decide)
  have q1 : gmin.get 3 3 = -2 := g1 3 (by decide) 3 (by decide)
  have q2 : gmax.get 3 3 = 3 := g2 3 (by decide) 3 (by decide)
  have trans : Translated (exImgB fun r c => .fin (exPeak r c)) (exImgB fun r c => .fin (exPeak r c)) 0 0 := by
    intro a b a' b' _ _ _ _ h1 h2
    obtain rfl : a' = a := by omega
    obtain rfl : b' = b := by omega
    rfl
  have inside : BothInside 0 (exImgB fun r c => .fin (exPeak r c)) (exImgB fun r c => .fin (exPeak r c)) 0 0 3 3 := by
    simp only [BothInside, exImgB]; decide
  have clean : CleanWindow 0 (exImgB fun r c => .fin (exPeak r c)) (exImgB fun r c => .fin (exPeak r c)).noData 3 3 := by
    refine ⟨fun x y _ _ _ _ => ⟨⟨_, rfl⟩, ?_, rfl⟩, rfl⟩
    simp only [exImgB, ne_eq, F.fin.injEq]
    have := exPeak_nonneg x y
    intro h
    linarith
  have differ : ∀ dr dc, InIntervals ⟨.const 0, 1⟩ ⟨.const 0, 1⟩ 3 3 dr dc → (dr, dc) ≠ (0, 0) →
      WindowsDiffer 0 (exImgB fun r c => .fin (exPeak r c)) (exImgB fun r c => .fin (exPeak r c)) 3 3 dr dc := by
    rintro dr dc - hne
    refine ⟨3, 3, by decide, by decide, fun x y hx hy _ _ => ?_⟩
    simp only [exImgB, ne_eq, F.fin.injEq]
    have hxy : ¬ (x = 3 ∧ y = 3) := by
      rintro ⟨rfl, rfl⟩
      apply hne
      rw [Prod.mk.injEq]
      omega
    have h0 : exPeak 3 3 = 0 := by simp [exPeak]
    rw [h0]
    unfold exPeak
    rw [if_neg hxy]
    split_ifs <;> norm_num
  obtain ⟨r0, c0, s0, cost, hcost, bp, sp⟩ := key 3 hh 3 hw
  have costs : ∀ X Y : Int, (-2 ≤ X ∧ X ≤ 2) → (-2 ≤ Y ∧ Y ≤ 2) → cost (X : ℚ) (Y : ℚ) = .fin (exPeak (3 + X).toNat (3 + Y).toNat) := by
    intro X Y hX hY
    rw [hcost]
    exact centre_cost exPeak (by simp [exPeak]) exPeak_nonneg _ _ _ X Y hX hY (hd X ⟨X, by push_cast; ring⟩) q1 q2
  have zero : ∀ X Y : Int, exPeak (3 + X).toNat (3 + Y).toNat ≤ 0 → X = 0 ∧ Y = 0 := by
    intro X Y h
    unfold exPeak at h
    split_ifs at h with h1 h2
    · omega
    · norm_num at h
    · norm_num at h
  have c00 : cost 0 0 = .fin 0 := by
    have := costs 0 0 (by decide) (by decide)
    simpa [exPeak] using this
  have asked0 : AskedPair ⟨.const 0, 1⟩ ⟨.const 0, 1⟩ 1 (0 + (3 : Nat)) (0 + (3 : Nat)) (0 : ℚ) 0 := by
    refine ⟨⟨0, 0, by simp, by simp⟩, ⟨?_, ?_⟩, ?_, ?_⟩ <;> simp only [initAt] <;> norm_num
  have only : ∀ x y : ℚ, AskedPair ⟨.const 0, 1⟩ ⟨.const 0, 1⟩ 1 (0 + (3 : Nat)) (0 + (3 : Nat)) x y → cost x y = s0 → x = 0 ∧ y = 0 := by
    rintro x y ⟨⟨X, Y, hx, hy⟩, ⟨hx1, hx2⟩, hy1, hy2⟩ e
    simp only [Nat.cast_one, mul_one] at hx hy
    subst hx hy
    have a1 : (0 - 1 : Int) ≤ X := by exact_mod_cast hx1
    have a2 : X ≤ (0 + 1 : Int) := by exact_mod_cast hx2
    have b1 : (0 - 1 : Int) ≤ Y := by exact_mod_cast hy1
    have b2 : Y ≤ (0 + 1 : Int) := by exact_mod_cast hy2
    have best := (bp.best ⟨0, 0, asked0, by rw [c00]; simp⟩).2 (.fin 0) ⟨by simp, 0, 0, asked0, c00⟩
    rw [← e, costs X Y (by omega) (by omega)] at best
    obtain ⟨rfl, rfl⟩ := zero X Y (of_decide_eq_true best)
    simp
  obtain ⟨x, y, rfl, rfl, ⟨y', p1, p2⟩, ⟨x', p3, p4⟩, -⟩ := bp.smallest ⟨0, 0, asked0, by rw [c00]; simp⟩
  obtain rfl := (only _ _ p1 p2).1
  obtain rfl := (only _ _ p3 p4).2
  have inner : OptimumInside ⟨.const 0, 1⟩ 1 (0 + (3 : Nat)) (0 + (3 : Nat)) (0 : ℚ) := by
    refine ⟨?_, ?_, .inl ⟨0, rfl⟩⟩ <;> simp only [initAt] <;> norm_num
  have near : ∀ X : Int, (-2 ≤ X ∧ X ≤ 2) → |(X : ℚ) - 0| ≤ 5 / 2 / ((1 : Nat) : ℚ) := by
    intro X hX
    have a1 : (-2 : ℚ) ≤ X := by exact_mod_cast hX.1
    have a2 : (X : ℚ) ≤ 2 := by exact_mod_cast hX.2
    rw [abs_le]
    constructor <;> norm_num <;> linarith
  have hseen : ∀ X Y : Int, (-2 ≤ X ∧ X ≤ 2) → (-2 ≤ Y ∧ Y ≤ 2) →
      seen ⟨.const 0, 1⟩ ⟨.const 0, 1⟩ fr lr fc lc (0 + (3 : Nat)) (0 + (3 : Nat)) cost (X : ℚ) (Y : ℚ) = .fin (exPeak (3 + X).toNat (3 + Y).toNat) := by
    intro X Y hX hY
    rw [seen, if_pos ⟨around_read ext.1 inner (near X hX), around_read ext.2 inner (near Y hY)⟩]
    exact costs X Y hX hY
  have s00 : seen ⟨.const 0, 1⟩ ⟨.const 0, 1⟩ fr lr fc lc (0 + (3 : Nat)) (0 + (3 : Nat)) cost (0 : ℚ) 0 = .fin 0 := by
    have := hseen 0 0 (by decide) (by decide)
    simpa [exPeak] using this
  have value := exPeak_filtered _ hseen
  obtain ⟨x', y', v', e1, e2, e3, path⟩ := sp.searched 0 0 rfl rfl (by simp) (by simp)
    (by simp only [AtEnd, initAt]; norm_num) (by rw [s00]; simp)
  rw [s00] at path
  cases path with
  | stop h => omega
  | @move _ _ _ _ s _ _ _ h hs hp =>
    cases hp with
    | move h => omega
    | stop h =>
      have t0 : tried (filtered keysKernel 1 (seen ⟨.const 0, 1⟩ ⟨.const 0, 1⟩ fr lr fc lc (0 + (3 : Nat)) (0 + (3 : Nat)) cost)) (1 / 2 ^ (0 + 1)) (0 : ℚ) 0
          (.fin 0) (0, 1) = .fin (-191 / 16) := by
        rw [tried, if_neg (by decide), ← value]
        congr 1 <;> norm_num
      have best := hs.best (0, 1) ⟨⟨by decide, by decide⟩, by decide, by decide⟩ (by rw [t0]; simp)
      rw [t0] at best
      have hs0 : s ≠ (0, 0) := by
        rintro rfl
        rw [tried, if_pos rfl] at best
        have : (0 : ℚ) ≤ -191 / 16 := of_decide_eq_true best
        norm_num at this
      refine ⟨files, rest, _, _, by rw [run]; exact congrArg (·, none) o, im', trans, inside, clean, differ, ?_, ?_⟩
      · rintro ⟨f1, f2⟩
        rw [e1] at f1
        rw [e2] at f2
        have f1 := F.fin.inj f1
        have f2 := F.fin.inj f2
        apply hs0
        have g1 : (s.1 : ℚ) = 0 := by norm_num at f1; exact_mod_cast f1
        have g2 : (s.2 : ℚ) = 0 := by norm_num at f2; exact_mod_cast f2
        exact Prod.ext (by exact_mod_cast g1) (by exact_mod_cast g2)
      · have num := hs.number
        rw [tried, if_neg hs0] at best num e3
        unfold filtered at best num e3
        split_ifs at best num e3 with hnan
        · exact absurd rfl num
        · refine ⟨_, e3, ?_⟩
          have : _ ≤ (-191 / 16 : ℚ) := of_decide_eq_true best
          refine lt_of_le_of_lt this (by norm_num)

/-- An image which is a bowl around the pixel `(3, 3)`. -/
def exCup (r c : Nat) : ℚ := ((r : ℚ) - 3) ^ 2 + ((c : ℚ) - 3) ^ 2

theorem exCup_nonneg (r c : Nat) : 0 ≤ exCup r c := by
  unfold exCup
  positivity

/-- On two equal images where the costs of a pixel are those of a bowl, the null disparities of this pixel are kept by one iteration. -/
example : ∃ files rest,
    Main.main (exWorldC 0 (fun r c => .fin (exCup r c)) (fun r c => .fin (exCup r c))) (exUserIt 1) = (.rasters files :: rest, none) ∧
    files.row.values 3 3 = .fin 0 ∧ files.col.values 3 3 = .fin 0 ∧ files.score.values 3 3 = .fin 0 := by
  set w := exWorldC 0 (fun r c => .fin (exCup r c)) (fun r c => .fin (exCup r c)) with hwd
  have ct : RunContract w 7 7 := exWorldC_contract 0 _ _
  have run : Main.main w (exUserIt 1) = ((Main.main w (exUserIt 1)).1, none) := exWorldC_dichotomy _ _
  obtain ⟨files, rest, roi, left, right, gmin, gmax, fr, lr, fc, lc, o, hroi, im, zone, ext, g1, g2, size, key⟩ :=
    C124_dichotomy_keeps_partial w (exUserIt 1) _ _ _ exL exR _ _ 7 7 ⟨.const 0, 1⟩ ⟨.const 0, 1⟩ 0 6 0 6 1 1 .nan 1 0 sad keysKernel (exUserIt_wf 1)
      ct.disk ct.pandora ct.keeps sad_dissimilarity sad_onlyEqual rfl rfl rfl rfl ⟨_, 1, rfl, .inl rfl, by decide⟩ ⟨_, rfl, .inl ⟨rfl, rfl⟩⟩ rfl
      ⟨_, _, _, _, _, .int 1, rfl, rfl, rfl, .inl rfl, rfl, rfl⟩
      ⟨⟨_, rfl, ⟨_, _, _, rfl, rfl, rfl, .inl rfl, .inl ⟨_, .inl rfl, rfl⟩⟩, ⟨_, _, _, rfl, rfl, rfl, .inl rfl, .inl ⟨_, .inl rfl, rfl⟩⟩⟩,
        .inr ⟨rfl, rfl, rfl, rfl, rfl⟩,
        ⟨_, _, _, rfl, rfl, rfl, .inl ⟨_, _, rfl, .inl rfl, .inl rfl⟩, .inl ⟨_, rfl, .inr (.inr (.inl ⟨rfl, rfl⟩))⟩⟩⟩
      (by decide) rfl rfl rfl run
  obtain rfl := hroi.2 rfl
  obtain ⟨rfl, rfl⟩ := exWorldC_images _ _ _ _ _ im
  have hh : 3 < files.row.h := ((size files.row (by simp)).1 3).2 (by decide)
  have hw : 3 < files.row.w := ((size files.row (by simp)).2 3).2 (by decide)
  have q1 : gmin.get 3 3 = -2 := g1 3 (by decide) 3 (by decide)
  have q2 : gmax.get 3 3 = 3 := g2 3 (by decide) 3 (by decide)
  have c0 : exCup 3 3 = 0 := by simp [exCup]
  have inner : OptimumInside ⟨.const 0, 1⟩ 1 (0 + (3 : Nat)) (0 + (3 : Nat)) (0 : ℚ) := by
    refine ⟨?_, ?_, .inl ⟨0, rfl⟩⟩ <;> simp only [initAt] <;> norm_num
  obtain ⟨k1, k2, k3⟩ := key 3 hh 3 hw 3 3 rfl rfl 0 0
    (by
      intro a b a' b' _ _ _ _ h1 h2
      obtain rfl : a' = a := by omega
      obtain rfl : b' = b := by omega
      rfl)
    (by simp only [BothInside, exImgB]; decide)
    (by
      refine ⟨fun x y _ _ _ _ => ⟨⟨_, rfl⟩, ?_, rfl⟩, rfl⟩
      simp only [exImgB, ne_eq, F.fin.injEq]
      have := exCup_nonneg x y
      intro h
      linarith)
    (by simp only [initAt]; decide) (by simp only [initAt]; decide)
    (by
      rintro dr dc - hne
      refine ⟨3, 3, by decide, by decide, fun x y hx hy _ _ => ?_⟩
      simp only [exImgB, ne_eq, F.fin.injEq, c0]
      intro h
      apply hne
      have hx2 : ((x : ℚ) - 3) ^ 2 = 0 := by
        unfold exCup at h
        nlinarith [sq_nonneg ((x : ℚ) - 3), sq_nonneg ((y : ℚ) - 3)]
      have hy2 : ((y : ℚ) - 3) ^ 2 = 0 := by
        unfold exCup at h
        nlinarith [sq_nonneg ((x : ℚ) - 3), sq_nonneg ((y : ℚ) - 3)]
      have hx3 : (x : ℚ) = (3 : Nat) := by push_cast; linarith [pow_eq_zero_iff (two_ne_zero) |>.1 hx2]
      have hy3 : (y : ℚ) = (3 : Nat) := by push_cast; linarith [pow_eq_zero_iff (two_ne_zero) |>.1 hy2]
      have hx4 : x = 3 := by exact_mod_cast hx3
      have hy4 : y = 3 := by exact_mod_cast hy3
      rw [Prod.mk.injEq]
      omega)
    ⟨by simp, by simp⟩
    (by
      intro cost hcost x y hx hy hxy
      right
      have near : ∀ z : ℚ, |z - ((0 : Int) : ℚ)| ≤ 1 / 2 → ∀ i < 4, ∃ Z : Int, node keysKernel 1 z i = (Z : ℚ) ∧ -2 ≤ Z ∧ Z ≤ 2 := by
        intro z hz i hi
        rw [abs_le] at hz
        have f1 : -1 ≤ ⌊z⌋ := Int.le_floor.2 (by push_cast at hz ⊢; linarith [hz.1])
        have f2 : ⌊z⌋ ≤ 0 := by
          have : ⌊z⌋ < 1 := Int.floor_lt.2 (by push_cast at hz ⊢; linarith [hz.2])
          omega
        refine ⟨⌊z⌋ - 1 + i, ?_, by omega, by omega⟩
        simp only [node, keysKernel, Nat.cast_one, mul_one, div_one]
      have within : ∀ Z : Int, -2 ≤ Z ∧ Z ≤ 2 → |(Z : ℚ) - 0| ≤ 5 / 2 / ((1 : Nat) : ℚ) := by
        intro Z hZ
        have a1 : (-2 : ℚ) ≤ Z := by exact_mod_cast hZ.1
        have a2 : (Z : ℚ) ≤ 2 := by exact_mod_cast hZ.2
        rw [abs_le]
        constructor <;> norm_num <;> linarith
      refine ⟨_, filtered_bowl (a := 1) (b := 1) (e := 0) (x0 := 0) (y0 := 0) one_pos ?_, ?_⟩
      · intro i hi j hj
        obtain ⟨X, eX, hX⟩ := near x hx i hi
        obtain ⟨Y, eY, hY⟩ := near y hy j hj
        rw [eX, eY, seen, if_pos ⟨around_read ext.1 inner (within X hX), around_read ext.2 inner (within Y hY)⟩, hcost, ← slab_int zoomLinear _ 1,
          centre_cost exCup c0 exCup_nonneg _ _ _ X Y hX hY (slab_displaced _ 1 one_pos _ ⟨X, by push_cast; ring⟩) q1 q2]
        congr 1
        have tX : (((3 + X).toNat : Nat) : ℚ) = 3 + X := by
          have : (((3 + X).toNat : Nat) : Int) = 3 + X := by omega
          exact_mod_cast congrArg (Int.cast : Int → ℚ) this
        have tY : (((3 + Y).toNat : Nat) : ℚ) = 3 + Y := by
          have : (((3 + Y).toNat : Nat) : Int) = 3 + Y := by omega
          exact_mod_cast congrArg (Int.cast : Int → ℚ) this
        rw [exCup, bowlAt, tX, tY]
        ring
      · rw [bowlAt]
        have : x ≠ 0 ∨ y ≠ 0 := by
          by_contra hcon
          push Not at hcon
          exact hxy (by rw [hcon.1, hcon.2]; simp)
        rcases this with h | h
        · have := sq_pos_of_ne_zero h |>.le
          have := pow_pos (abs_pos.2 h) 2
          nlinarith [sq_abs x, sq_nonneg y]
        · have := pow_pos (abs_pos.2 h) 2
          nlinarith [sq_abs y, sq_nonneg x])
  refine ⟨files, rest, by rw [run]; exact congrArg (·, none) o, ?_, ?_, k3⟩
  · rw [k1]; rfl
  · rw [k2]; rfl

end Verif.Props
