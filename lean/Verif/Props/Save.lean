import Verif.Spec.Save
import Verif.Props.MatchingCost
import Mathlib.Tactic.Ring

/-!
# Properties C21 and C22: georeferencing of the results
-/

set_option linter.unusedSectionVars false

namespace Verif.Props

open Verif Verif.ImgTools Verif.MatchingCost Verif.Disparity Verif.Spec Verif.Save

section
variable {K : Type} [Field K] {β : Type}

theorem ground_mul (s t : Affine K) (x y : K) :
    ground (s.mul t) x y = ground s (ground t x y).1 (ground t x y).2 := by
  unfold ground Affine.mul
  refine Prod.ext ?_ ?_ <;> ring

theorem getStep_eq (cfg : SaveCfg) : getStep cfg = cfg.step.getD (1, 1) := by
  unfold getStep
  cases cfg.step <;> rfl

/-- What the adjusted transform does: multiply by the step, then add the origin of the ROI. -/
theorem ground_adjust (cfg : SaveCfg) (t : Affine K) (x y : K) :
    ground (adjust cfg t) x y = ground t
      (x * ((cfg.step.getD (1, 1)).2 : K) + (match cfg.roi with | some r => (r.colFirst : K) | none => 0))
      (y * ((cfg.step.getD (1, 1)).1 : K) + (match cfg.roi with | some r => (r.rowFirst : K) | none => 0)) := by
  unfold adjust
  rw [getStep_eq]
  cases cfg.roi with
  | none =>
    simp only
    rw [ground_mul]
    simp only [ground, Affine.scale]
    refine Prod.ext ?_ ?_ <;> ring
  | some r =>
    simp only
    rw [ground_mul, ground_mul]
    simp only [ground, Affine.scale, Affine.translation]
    refine Prod.ext ?_ ?_ <;> ring

/-! ## C21 -/

/-- C21 without ROI: for every dataset whose coordinates are multiples of the step from the first pixel, the three files hold
the maps unchanged with the same coordinate system and a transform which locates each output pixel at its input pixel; without
georeferencing none is written. -/
theorem C21_without_roi (ds : OutDs K β) (cfg : SaveCfg) (hr : cfg.roi = none)
    (prow : IsProg ds.maps.row 0 (cfg.step.getD (1, 1)).1) (pcol : IsProg ds.maps.col 0 (cfg.step.getD (1, 1)).2) :
    ∃ files after, saveDataset ds cfg = .ok (files, after) ∧
      (∀ f ∈ [files.row, files.col, files.score], f.h = ds.maps.row.n ∧ f.w = ds.maps.col.n ∧ f.crs = ds.crs ∧
        (ds.transform = none → f.transform = none) ∧
        ∀ t, ds.transform = some t → ∃ out, f.transform = some out ∧
          ∀ i < ds.maps.row.n, ∀ j < ds.maps.col.n,
            Locates out t i j (ds.maps.row.get i) (ds.maps.col.get j) (cfg.step.getD (1, 1)).1 (cfg.step.getD (1, 1)).2) ∧
      files.row.values = ds.maps.rowMap ∧ files.col.values = ds.maps.colMap ∧ files.score.values = ds.maps.score := by
  unfold saveDataset prepared
  rw [hr]
  cases ht : ds.transform with
  | none =>
    simp only [ht, bind, Except.bind, pure, Except.pure]
    refine ⟨_, _, rfl, ?_, rfl, rfl, rfl⟩
    intro f hf
    simp only [List.mem_cons, List.not_mem_nil, or_false] at hf
    rcases hf with rfl | rfl | rfl <;>
      exact ⟨rfl, rfl, rfl, fun _ => rfl, fun t h => by simp at h⟩
  | some t =>
    simp only [ht, bind, Except.bind, pure, Except.pure]
    refine ⟨_, _, rfl, ?_, rfl, rfl, rfl⟩
    intro f hf
    have key : ∀ t', some t = some t' → ∃ out, some (adjust cfg t) = some out ∧
          ∀ i < ds.maps.row.n, ∀ j < ds.maps.col.n,
            Locates out t' i j (ds.maps.row.get i) (ds.maps.col.get j) (cfg.step.getD (1, 1)).1 (cfg.step.getD (1, 1)).2 := by
      intro t' e
      obtain rfl := Option.some.inj e
      refine ⟨_, rfl, fun i hi j hj u v => ?_⟩
      rw [ground_adjust, hr, prow i hi, pcol j hj]
      simp only
      congr 1 <;> push_cast <;> ring
    simp only [List.mem_cons, List.not_mem_nil, or_false] at hf
    rcases hf with rfl | rfl | rfl <;> exact ⟨rfl, rfl, rfl, fun h => by simp at h, key⟩

/-- Non vacuous: rows 0, 2, 4 and columns 0, 3; a rotated transform. -/
example : ∃ ds : OutDs ℚ Nat, ∃ cfg : SaveCfg, cfg.roi = none ∧ IsProg ds.maps.row 0 (cfg.step.getD (1, 1)).1 ∧
    IsProg ds.maps.col 0 (cfg.step.getD (1, 1)).2 ∧ ds.maps.row.n = 3 ∧ ds.transform = some ⟨0, 2, 100, -2, 0, 50⟩ :=
  ⟨⟨⟨⟨3, fun k => 2 * k⟩, ⟨2, fun k => 3 * k⟩, fun _ _ => 0, fun _ _ => 0, fun _ _ => 0⟩, none, some ⟨0, 2, 100, -2, 0, 50⟩⟩,
    ⟨none, some (2, 3)⟩, rfl, fun k _ => by simp; ring, fun k _ => by simp; ring, rfl, rfl⟩

/-! ## C22 -/

/-- C22, full statement: the dataset of the caller is unchanged by the call. -/
def C22Statement (K β : Type) [Field K] : Prop :=
  ∀ (ds : OutDs K β) (cfg : SaveCfg) (files : Files K β) (after : OutDs K β),
    saveDataset ds cfg = .ok (files, after) → after = ds

/-- The transform stored in the dataset of the caller after `n` calls, and the transform written by the last one (none if
there was no call). -/
def saveTimes (ds : OutDs K β) (cfg : SaveCfg) : Nat → Except Err (Option (Files K β) × OutDs K β)
  | 0 => .ok (none, ds)
  | n + 1 => do
    let (_, d) ← saveTimes ds cfg n
    let (f, d') ← saveDataset d cfg
    return (some f, d')

theorem scale_scale (t : Affine K) (x y u v : K) :
    (t.mul (Affine.scale x y)).mul (Affine.scale u v) = t.mul (Affine.scale (x * u) (y * v)) := by
  simp only [Affine.mul, Affine.scale, Affine.mk.injEq]
  refine ⟨?_, ?_, ?_, ?_, ?_, ?_⟩ <;> ring

theorem scale_one (t : Affine K) : t.mul (Affine.scale 1 1) = t := by
  simp [Affine.mul, Affine.scale]

/-- C22 is false of the code without ROI: each call multiplies the pixel size stored in the dataset of the caller by the step,
so that the `n`-th file has a pixel of `step ^ n` input pixels. -/
theorem C22_repeated_saves_without_roi (ds : OutDs K β) (cfg : SaveCfg) (hr : cfg.roi = none) (t : Affine K)
    (ht : ds.transform = some t) (n : Nat) :
    ∃ f d, saveTimes ds cfg n = .ok (f, d) ∧ d.maps = ds.maps ∧ d.crs = ds.crs ∧
      d.transform = some (t.mul (Affine.scale (((cfg.step.getD (1, 1)).2 : K) ^ n) (((cfg.step.getD (1, 1)).1 : K) ^ n))) ∧
      ∀ g, f = some g → g.row.transform = d.transform ∧ g.col.transform = d.transform ∧ g.score.transform = d.transform := by
  induction n with
  | zero => exact ⟨none, ds, rfl, rfl, rfl, by rw [pow_zero, pow_zero, scale_one]; exact ht, fun g h => by simp at h⟩
  | succ n ih =>
    obtain ⟨f, d, e, m, c, tr, -⟩ := ih
    unfold saveTimes
    rw [e]
    simp only [bind, Except.bind]
    unfold saveDataset prepared
    rw [hr]
    simp only [bind, Except.bind, pure, Except.pure, tr]
    refine ⟨_, _, rfl, m, c, ?_, ?_⟩
    · simp only [Option.isSome_none, Bool.false_eq_true, if_false]
      unfold adjust
      rw [getStep_eq]
      rw [hr]
      simp only
      rw [scale_scale, pow_succ, pow_succ]
    · intro g hg
      obtain rfl := Option.some.inj hg
      exact ⟨rfl, rfl, rfl⟩

/-- C22 is false of the code: step 2, no ROI. -/
theorem C22_false_without_roi : ¬ C22Statement ℚ Nat := by
  intro h
  let ds : OutDs ℚ Nat := ⟨⟨⟨1, fun _ => 0⟩, ⟨1, fun _ => 0⟩, fun _ _ => 0, fun _ _ => 0, fun _ _ => 0⟩, none, some ⟨1, 0, 0, 0, 1, 0⟩⟩
  have e : saveDataset ds ⟨none, some (2, 2)⟩ = .ok (_, _) := rfl
  have := h ds _ _ _ e
  have h2 := congrArg (fun d : OutDs ℚ Nat => d.transform.map Affine.a) this
  revert h2
  decide +kernel

/-- C22 (partial): the dataset of the caller is unchanged with a ROI, or without georeferencing, or with a step of one. The
remaining case (georeferenced, no ROI, other steps) is false, `C22_repeated_saves_without_roi`. -/
theorem C22_unchanged_partial (ds : OutDs K β) (cfg : SaveCfg) (files : Files K β) (after : OutDs K β)
    (hc : cfg.roi.isSome = true ∨ ds.transform = none ∨ cfg.step.getD (1, 1) = (1, 1))
    (h : saveDataset ds cfg = .ok (files, after)) : after = ds := by
  unfold saveDataset at h
  simp only [bind, Except.bind, pure, Except.pure] at h
  split at h
  · simp at h
  · rename_i out hout
    rw [Except.ok.injEq, Prod.mk.injEq] at h
    rw [← h.2]
    cases hroi : cfg.roi with
    | some r => rfl
    | none =>
      rw [hroi] at hc
      simp only [Option.isSome_none, Bool.false_eq_true, false_or] at hc
      simp only [Option.isSome_none, Bool.false_eq_true, if_false]
      unfold prepared at hout
      rw [hroi] at hout
      simp only [bind, Except.bind, pure, Except.pure] at hout
      cases ht : ds.transform with
      | none => rw [ht] at hout; simp only [Except.ok.injEq] at hout; exact hout.symm
      | some t =>
        rw [ht] at hout hc
        simp only [Except.ok.injEq] at hout
        rw [← hout]
        have e : adjust cfg t = t := by
          unfold adjust
          rw [getStep_eq]
          rw [hroi]
          rcases hc with h | h
          · simp at h
          · simp only [h, Nat.cast_one]; exact scale_one t
        rw [e]
        cases ds
        simp_all

end

/-! ## C21 with a ROI -/

variable {K : Type} [Field K] [LinearOrder K] [IsStrictOrderedRing K] [FloorRing K] {β : Type}

theorem slice_prog {x : Arr1 Int} {a : Int} {s : Nat} (hx : IsProg x a s) (lo hi : Int) :
    IsProg (x.slice lo hi) (a + (sliceStart x.n lo : Int) * s) s := by
  intro k hk
  have hlt : sliceStart x.n lo + k < x.n := by
    simp only [Arr1.slice, sliceLen, sliceStart] at hk ⊢
    have : clampIdx x.n hi ≤ x.n := by
      unfold clampIdx
      split <;> omega
    omega
  simp only [Arr1.slice]
  rw [hx _ hlt]
  push_cast
  ring

/-- A progression of positive step which contains `f` and nothing below it starts at `f`. -/
theorem prog_first {x : Arr1 Int} {a f : Int} {s : Nat} (hs : 1 ≤ s) (hx : IsProg x a s) (hmem : f ∈ x.toList)
    (hge : ∀ y ∈ x.toList, f ≤ y) : IsProg x f s := by
  have mem : ∀ k, k < x.n → x.get k ∈ x.toList := fun k hk => List.mem_map.2 ⟨k, List.mem_range.2 hk, rfl⟩
  obtain ⟨k, hk, e⟩ := List.mem_map.1 hmem
  rw [List.mem_range] at hk
  have h0 := hge _ (mem 0 (by omega))
  rw [hx 0 (by omega)] at h0
  rw [hx k hk] at e
  have : a = f := by
    have : (0 : Int) ≤ (k : Int) * s := by positivity
    simp at h0
    omega
  rw [← this]
  exact hx

/-- C21 with a ROI, on the coordinates produced by the matching cost step for any ROI, margins and step: the files hold the
maps at the computed points inside the ROI, and locate each output pixel at the input pixel of its point. -/
theorem C21_with_roi {z : Zoom K} {pc : Pandora.Cost K} {cfg : Cfg} {left : Left K} {right : Img K} {margins : Option Margins}
    {cv : CostVolumes K} {R : Roi} {H W : Nat} (hp : PairOk left right) (hs : 0 < cfg.subpix) (h1 : 1 ≤ cfg.stepRow)
    (h2 : 1 ≤ cfg.stepCol) (hc : CropOk left.img R H W)
    (h : computeCostVolumes z pc cfg (some R) left right margins = .ok cv) (rowMap colMap score : Nat → Nat → β)
    (crs : Option String) (t : Affine K) :
    ∃ files after, saveDataset ⟨⟨cv.row, cv.col, rowMap, colMap, score⟩, crs, some t⟩
        ⟨some R, some (cfg.stepRow, cfg.stepCol)⟩ = .ok (files, after) ∧
      ∀ f v, (f, v) ∈ [(files.row, rowMap), (files.col, colMap), (files.score, score)] →
        f.crs = crs ∧ ∃ out, f.transform = some out ∧ (∀ i < f.h, ∀ j < f.w, ∃ r' < cv.row.n, ∃ c' < cv.col.n,
          f.values i j = v r' c' ∧ (R.rowFirst ≤ cv.row.get r' ∧ cv.row.get r' ≤ R.rowLast) ∧
          (R.colFirst ≤ cv.col.get c' ∧ cv.col.get c' ≤ R.colLast) ∧
          Locates out t i j (cv.row.get r') (cv.col.get c') cfg.stepRow cfg.stepCol) ∧
        f.h = (cv.row.toList.filter (fun y => R.rowFirst ≤ y ∧ y ≤ R.rowLast)).length ∧
        f.w = (cv.col.toList.filter (fun x => R.colFirst ≤ x ∧ x ≤ R.colLast)).length := by
  obtain ⟨⟨a, ⟨pr, -, -⟩, -⟩, ⟨b, ⟨pcg, -, -⟩, -⟩⟩ := C17_coordinates_with_roi hp hs h1 h2 hc h
  obtain ⟨out, ho, x1, x2, m1, m2, x3⟩ := C19_after_matching_cost hp hs h1 h2 hc h rowMap colMap score
  -- the kept coordinates are slices, hence progressions, which start at the first point of the ROI
  have slices : ∃ u d l r, out.row = cv.row.slice u d ∧ out.col = cv.col.slice l r := by
    unfold removeRoiMargins at ho
    simp only [bind, Except.bind, pure, Except.pure] at ho
    split at ho
    · simp at ho
    · split at ho
      · simp at ho
      · rw [Except.ok.injEq] at ho
        rw [← ho]
        exact ⟨_, _, _, _, rfl, rfl⟩
  obtain ⟨u, d, l, r, er, ec⟩ := slices
  have prow : IsProg out.row R.rowFirst cfg.stepRow := by
    apply prog_first h1 (by rw [er]; exact slice_prog pr u d) m1
    intro y hy
    rw [x1, List.mem_filter] at hy
    have := hy.2
    simp only [decide_eq_true_eq] at this
    exact this.1
  have pcol : IsProg out.col R.colFirst cfg.stepCol := by
    apply prog_first h2 (by rw [ec]; exact slice_prog pcg l r) m2
    intro y hy
    rw [x2, List.mem_filter] at hy
    have := hy.2
    simp only [decide_eq_true_eq] at this
    exact this.1
  have inrow : ∀ i < out.row.n, R.rowFirst ≤ out.row.get i ∧ out.row.get i ≤ R.rowLast := by
    intro i hi
    have : out.row.get i ∈ out.row.toList := List.mem_map.2 ⟨i, List.mem_range.2 hi, rfl⟩
    rw [x1, List.mem_filter] at this
    simpa using this.2
  have incol : ∀ i < out.col.n, R.colFirst ≤ out.col.get i ∧ out.col.get i ≤ R.colLast := by
    intro i hi
    have : out.col.get i ∈ out.col.toList := List.mem_map.2 ⟨i, List.mem_range.2 hi, rfl⟩
    rw [x2, List.mem_filter] at this
    simpa using this.2
  have hn : out.row.n = (cv.row.toList.filter (fun y => R.rowFirst ≤ y ∧ y ≤ R.rowLast)).length := by
    rw [← x1]; simp [Arr1.toList]
  have hm : out.col.n = (cv.col.toList.filter (fun x => R.colFirst ≤ x ∧ x ≤ R.colLast)).length := by
    rw [← x2]; simp [Arr1.toList]
  unfold saveDataset prepared
  simp only [bind, Except.bind, pure, Except.pure, ho]
  refine ⟨_, _, rfl, ?_⟩
  have loc : ∀ i < out.row.n, ∀ j < out.col.n,
      Locates (adjust ⟨some R, some (cfg.stepRow, cfg.stepCol)⟩ t) t i j (out.row.get i) (out.col.get j) cfg.stepRow
        cfg.stepCol := by
    intro i hi j hj u v
    rw [ground_adjust, prow i hi, pcol j hj]
    simp only [Option.getD_some]
    congr 1 <;> push_cast <;> ring
  intro f v hf
  simp only [List.mem_cons, Prod.mk.injEq, List.not_mem_nil, or_false] at hf
  rcases hf with ⟨rfl, rfl⟩ | ⟨rfl, rfl⟩ | ⟨rfl, rfl⟩
  all_goals
    refine ⟨rfl, _, rfl, fun i hi j hj => ?_, hn, hm⟩
    obtain ⟨r', hr', c', hc', q1, q2, q3, q4, q5⟩ := x3 i hi j hj
    have i1 := inrow i hi
    have i2 := incol j hj
    have i3 := loc i hi j hj
    rw [q1] at i1 i3
    rw [q2] at i2 i3
    exact ⟨r', hr', c', hc', by assumption, i1, i2, i3⟩

/-- The hypotheses of `C21_without_roi` on the coordinates: those of the matching cost step on an image which starts at (0, 0). -/
theorem C21_coordinates_without_roi {z : Zoom K} {pc : Pandora.Cost K} {cfg : Cfg} {left : Left K} {right : Img K}
    {margins : Option Margins} {cv : CostVolumes K} (hp : PairOk left right) (hs : 0 < cfg.subpix) (h1 : 1 ≤ cfg.stepRow)
    (h2 : 1 ≤ cfg.stepCol) (hr : left.img.row0 = 0) (hc : left.img.col0 = 0)
    (h : computeCostVolumes z pc cfg none left right margins = .ok cv) :
    IsProg cv.row 0 cfg.stepRow ∧ IsProg cv.col 0 cfg.stepCol := by
  obtain ⟨a, b⟩ := C17_coordinates_without_roi hp hs h1 h2 h
  rw [hr] at a
  rw [hc] at b
  exact ⟨a.1, b.1⟩

/-- Error branch: a ROI without `step` in the configuration raises `KeyError`. -/
theorem C21_roi_without_step_raises (ds : OutDs K β) (R : Roi) :
    saveDataset ds ⟨some R, none⟩ = .error .keyError := rfl

end Verif.Props
