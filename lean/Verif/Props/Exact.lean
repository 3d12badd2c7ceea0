import Verif.Spec.Exact
import Verif.Props.Winner
import Verif.Props.DichotomyMainExample

/-!
# C91: the disparities of the rasters are exact
-/

namespace Verif.Props

open Verif Verif.Config Verif.Machine Verif.ImgTools Verif.MatchingCost Verif.Disparity Verif.Estimation Verif.Run Verif.Main Verif.Spec
  Verif.Save Verif.Statistics

set_option linter.unusedSectionVars false

variable {K : Type} [Field K] [LinearOrder K] [IsStrictOrderedRing K] [FloorRing K]

/-- A multiple of `1 / 2 ^ k` less than `2 ^ (24 - k)` is a float32. -/
theorem dyadic_float32 {x : K} {k : Nat} {a b : Int} (hk : k ≤ 24) (ha : x * ((2 ^ k : Nat) : K) = a) (hb : |x| < (b : K))
    (hbk : b * 2 ^ k ≤ 2 ^ 24) : IsFloat32 x := by
  have hp : (0 : K) < 2 ^ k := by positivity
  rw [Nat.cast_pow, Nat.cast_ofNat] at ha
  refine ⟨a, -(k : Int), ?_, by omega, by omega, ?_⟩
  · have h1 : |(a : K)| < (b : K) * 2 ^ k := by
      rw [← ha, abs_mul, abs_of_pos hp]
      exact mul_lt_mul_of_pos_right hb hp
    have h2 : ((|a| : Int) : K) < ((b * 2 ^ k : Int) : K) := by push_cast; exact h1
    exact lt_of_lt_of_le (Int.cast_lt.1 h2) hbk
  · rw [← ha, zpow_neg, zpow_natCast, mul_assoc, mul_inv_cancel₀ (ne_of_gt hp), mul_one]

theorem asked_less {d : Disp} {H W : Nat} {b r c : Int} {x : K} (hb : LessThan d H W b) (hr : 0 ≤ r ∧ r < H) (hc : 0 ≤ c ∧ c < W)
    (h : ((initAt d r c - d.range : Int) : K) ≤ x ∧ x ≤ ((initAt d r c + d.range : Int) : K)) : |x| < (b : K) := by
  have h1 := hb r c hr.1 hr.2 hc.1 hc.2
  have h2 := abs_lt.1 (show |initAt d r c| < b - d.range by omega)
  rw [abs_lt]
  constructor
  · refine lt_of_lt_of_le ?_ h.1
    rw [← Int.cast_neg]
    exact Int.cast_lt.2 (by omega)
  · exact lt_of_le_of_lt h.2 (Int.cast_lt.2 (by omega))

/-- C91: without refinement, when the subpixel factor is at most 512 and the disparities asked less than 32768, each disparity of the
rasters is the invalid value or a number which a float32 holds exactly. -/
theorem C91_exact_disparities (w : World K) (user p0 mc inp l r : Fields) (out : List (Written K)) (H W : Nat) (dRow dCol : Disp)
    (rf rl cf cl : Int) (sr sc : Nat) (invalid : F K) (k : Nat) (me : Measure) (pc : Pandora.Cost K) (tr : Option (Affine K)) (hw : user.wf)
    (hdisk : DiskContract w H W) (hpan : PandoraContract w) (hkeeps : PandoraKeeps w.pandora) (hzoom : w.run.zoom = zoomLinear)
    (hu : user.get "pipeline" = some (.obj p0)) (he : p0.get "estimation" = none) (href : p0.get "refinement" = none)
    (hmc : p0.get "matching_cost" = some (.obj mc)) (hm : MatcherIs w mc (2 ^ k) me pc)
    (ask : Asks w user H W dRow dCol rf rl cf cl sr sc invalid) (hl : 0 ≤ rf ∧ 0 ≤ cf ∧ rl < H ∧ cl < W)
    (hi : user.get "input" = some (.obj inp)) (hleft : inp.get "left" = some (.obj l)) (hright : inp.get "right" = some (.obj r))
    (ht : LeftTransform w user tr) (hk : k ≤ 9) (hr : LessThan dRow H W (2 ^ 15)) (hc : LessThan dCol H W (2 ^ 15))
    (h : Main.main w user = (out, none)) :
    ∃ files rest, out = .rasters files :: rest ∧ ∀ i < files.row.h, ∀ j < files.row.w,
      (files.row.values i j = invalid ∧ files.col.values i j = invalid) ∨
      ∃ dr dc : K, files.row.values i j = .fin dr ∧ files.col.values i j = .fin dc ∧ IsFloat32 dr ∧ IsFloat32 dc := by
  obtain ⟨files, rest, roi, left, right, gmin, gmax, displaced, o1, -, -, -, -, -, key⟩ := C87_best_pair w user p0 mc inp l r out H W dRow dCol
    rf rl cf cl sr sc invalid (2 ^ k) me pc hw hdisk hpan hkeeps hzoom hu he href hmc hm ask ⟨hl.2.2.1, hl.2.2.2⟩ hi hleft hright h
  obtain ⟨files', rest', o2, zone, -⟩ := C78_files_answer_user w user p0 out H W dRow dCol rf rl cf cl sr sc invalid tr hw hdisk hpan hu he href
    ask ⟨hl.2.2.1, hl.2.2.2⟩ ht h
  rw [o1, List.cons.injEq, Written.rasters.injEq] at o2
  obtain ⟨rfl, -⟩ := o2
  have hz := zone files.row (by simp)
  refine ⟨files, rest, o1, fun i hi j hj => ?_⟩
  have b := key i hi j hj
  have z1 := (hz.rows i).1 hi
  have z2 := (hz.cols j).1 hj
  have p1 : 0 ≤ (i : Int) * sr := by positivity
  have p2 : 0 ≤ (j : Int) * sc := by positivity
  have hbk : (2 : Int) ^ 15 * 2 ^ k ≤ 2 ^ 24 := by
    rw [← pow_add]
    exact pow_le_pow_right₀ (by decide) (by omega)
  by_cases hex : ∃ dr dc, AskedPair dRow dCol (2 ^ k) (rf + (i : Int) * sr) (cf + (j : Int) * sc) dr dc ∧
      pc left (displaced dr) gmin gmax (rf + (i : Int) * sr - left.row0).toNat (cf + (j : Int) * sc - left.col0).toNat dc ≠ .nan
  · obtain ⟨dr, dc, e1, e2, ⟨x, ⟨⟨a, -, h1, -⟩, h2, -⟩, -⟩, ⟨y, ⟨⟨-, b, -, h3⟩, -, h4⟩, -⟩, -⟩ := b.smallest hex
    refine .inr ⟨dr, dc, e1, e2, ?_, ?_⟩
    · exact dyadic_float32 (by omega) h1 (asked_less hr (by omega) (by omega) h2) hbk
    · exact dyadic_float32 (by omega) h3 (asked_less hc (by omega) (by omega) h4) hbk
  · push Not at hex
    obtain ⟨e1, e2, -⟩ := b.invalid hex
    exact .inl ⟨e1, e2⟩

/-- C91 with a dichotomy. -/
theorem C91_exact_refined (w : World K) (user p0 mc f : Fields) (out : List (Written K)) (H W : Nat) (dRow dCol : Disp)
    (rf rl cf cl : Int) (sr sc : Nat) (invalid : F K) (tr : Option (Affine K)) (k it : Nat) (hw : user.wf) (hdisk : DiskContract w H W)
    (hpan : PandoraContract w) (hkeeps : PandoraKeeps w.pandora) (hu : user.get "pipeline" = some (.obj p0))
    (he : p0.get "estimation" = none) (hmc : p0.get "matching_cost" = some (.obj mc)) (hsub : SubpixIs w mc (2 ^ k))
    (href : p0.get "refinement" = some (.obj f))
    (hm : f.get "refinement_method" = some (.str "dichotomy")) (hit : IterationsIs f it)
    (ask : Asks w user H W dRow dCol rf rl cf cl sr sc invalid)
    (hne : 0 ≤ rf ∧ rf < rl ∧ rl < H ∧ 0 ≤ cf ∧ cf < cl ∧ cl < W) (ht : LeftTransform w user tr)
    (hk : k ≤ 9) (hr : LessThan dRow H W (2 ^ 15)) (hc : LessThan dCol H W (2 ^ 15)) (h : Main.main w user = (out, none)) :
    ∃ files rest, out = .rasters files :: rest ∧ ∀ i < files.row.h, ∀ j < files.row.w,
      (files.row.values i j = invalid ∧ files.col.values i j = invalid) ∨
      ∃ dr dc : K, files.row.values i j = .fin dr ∧ files.col.values i j = .fin dc ∧ IsFloat32 dr ∧ IsFloat32 dc := by
  obtain ⟨-, -, files, rest, o1, zone, key⟩ := C82_refined_files w user p0 mc f out H W dRow dCol rf rl cf cl sr sc invalid tr k it hw hdisk hpan
    hkeeps hu he hmc hsub href hm hit ask ⟨hne.2.1, hne.2.2.1, hne.2.2.2.2⟩ ht h
  have hz := zone files.row (by simp)
  refine ⟨files, rest, o1, fun i hi j hj => ?_⟩
  have z1 := (hz.rows i).1 hi
  have z2 := (hz.cols j).1 hj
  have hit9 : it ≤ 9 := by
    obtain ⟨v, n, -, -, rfl⟩ := hit
    exact min_le_right _ _
  have hbk : (2 : Int) ^ 15 * 2 ^ (max k it) ≤ 2 ^ 24 := by
    rw [← pow_add]
    exact pow_le_pow_right₀ (by decide) (by omega)
  rcases key i hi j hj with hinv | ⟨dr, dc, e1, e2, h2, h4, a, b, h1, h3⟩
  · exact .inl hinv
  · refine .inr ⟨dr, dc, e1, e2, ?_, ?_⟩
    · exact dyadic_float32 (by omega) h1 (asked_less hr (by push_cast at z1; omega) (by push_cast at z2; omega) h2) hbk
    · exact dyadic_float32 (by omega) h3 (asked_less hc (by push_cast at z1; omega) (by push_cast at z2; omega) h4) hbk

/-- The bound is tight: with a factor of 512, one more bit is not a float32. -/
theorem C91_bound_tight : ¬ IsFloat32 ((2 : ℚ) ^ 15 + 1 / 512) := by
  rintro ⟨m, e, hm, -, -, h⟩
  have h' : ((2 ^ 24 + 1 : Int) : ℚ) = (m : ℚ) * (2 : ℚ) ^ (e + 9) := by
    rw [zpow_add₀ (by norm_num), ← mul_assoc, ← h]
    norm_num
  rcases le_or_gt 0 (e + 9) with he | he
  · obtain ⟨n, hn⟩ := Int.eq_ofNat_of_zero_le he
    rw [hn, zpow_natCast] at h'
    have h2 : (2 ^ 24 + 1 : Int) = m * 2 ^ n := by exact_mod_cast h'
    cases n with
    | zero => rw [pow_zero, mul_one] at h2; rw [← h2] at hm; norm_num at hm
    | succ n => rw [pow_succ 2 n, ← mul_assoc] at h2; omega
  · have h3 : (2 : ℚ) ^ (e + 9) ≤ 1 := zpow_le_one_of_nonpos₀ (by norm_num) (by omega)
    have h4 : |(m : ℚ)| < 2 ^ 24 := by
      rw [← Int.cast_abs]
      exact_mod_cast hm
    have h5 : (0 : ℚ) < (2 : ℚ) ^ (e + 9) := by positivity
    have h6 : |((2 ^ 24 + 1 : Int) : ℚ)| ≤ |(m : ℚ)| * 1 := by
      rw [h', abs_mul, abs_of_pos h5]
      exact mul_le_mul_of_nonneg_left h3 (abs_nonneg _)
    norm_num at h6
    linarith

/-! ### Non-vacuity -/

/-- The hypotheses hold for the execution of C87. -/
example := C91_exact_disparities exWorldS exUserS _ _ _ _ _ _ 5 3 _ _ 1 2 0 2 1 1 .nan 0 .min _ (some ⟨1, 0, 100, 0, -1, 200⟩) exUserS_wf
    exWorldS_contract.disk exWorldS_contract.pandora exWorldS_contract.keeps rfl rfl rfl rfl rfl exUserS_matcher exUserS_asks (by decide)
    rfl rfl rfl ⟨_, _, _, rfl, rfl, rfl, by intro g hg; simp [exWorldS, exWorldOf, exWorld, isLeftSection, hg, readValue]⟩ (by decide)
    (fun _ _ _ _ _ _ => by simp [initAt]) (fun _ _ _ _ _ _ => by simp [initAt]) exUserS_ok

/-- They hold for the dichotomy of C82. -/
example := C91_exact_refined exWorldD exUserD _ _ _ _ 7 7 _ _ 0 6 0 6 1 1 .nan _ 0 1 exUserD_wf exWorldD_disk
    ⟨exWorldI_contract.pandora.subpix, exWorldI_contract.pandora.cost⟩ ⟨exWorldI_contract.keeps.numbers, exWorldI_contract.keeps.again⟩
    rfl rfl rfl ⟨_, _, _, _, _, _, rfl, rfl, rfl, .inl rfl⟩ rfl rfl ⟨_, 1, rfl, .inl rfl, rfl⟩ exUserD_asks (by decide)
    exUserD_transform (by decide) (fun _ _ _ _ _ _ => by simp [initAt]) (fun _ _ _ _ _ _ => by simp [initAt]) exUserD_ok

end Verif.Props
