import Verif.Spec.Tiles
import Verif.Props.RoiRasters
import Verif.Props.Values

/-!
# C117: two regions of interest of the same images
-/

namespace Verif.Props

open Verif Verif.Config Verif.Machine Verif.ImgTools Verif.MatchingCost Verif.Disparity Verif.Estimation Verif.Run Verif.Main Verif.Spec
  Verif.Save Verif.Statistics

set_option linter.unusedSectionVars false

variable {K : Type} [Field K] [LinearOrder K] [IsStrictOrderedRing K] [FloorRing K]

/-- The disparities of a pair of the region are between those of the configuration. -/
theorem asked_range_at {d : Disp} {row0 col0 : Int} {h w : Nat} (hcov : Covers d row0 col0 h w) {r c : Int}
    (hr : row0 ≤ r ∧ r < row0 + h) (hc : col0 ≤ c ∧ c < col0 + w) {x : K}
    (hx : ((initAt d r c - d.range : Int) : K) ≤ x ∧ x ≤ ((initAt d r c + d.range : Int) : K)) :
    InDispRange d ⌊x⌋ ∧ InDispRange d ⌈x⌉ := by
  have a1 : initAt d r c - d.range ≤ ⌊x⌋ := Int.le_floor.2 hx.1
  have a2 : ⌈x⌉ ≤ initAt d r c + d.range := Int.ceil_le.2 hx.2
  have a3 := Int.floor_le_ceil x
  unfold InDispRange
  unfold Covers at hcov
  unfold initAt at a1 a2
  cases hi : d.init with
  | const i =>
    rw [hi] at a1 a2
    simp only at a1 a2 ⊢
    omega
  | grid g =>
    rw [hi] at a1 a2 hcov
    simp only at a1 a2 hcov ⊢
    exact ⟨⟨r.toNat, by omega, c.toNat, by omega, by omega⟩, ⟨r.toNat, by omega, c.toNat, by omega, by omega⟩⟩

/-- The intervals of every pixel, as the matching cost wants them. -/
def wholeGrid (d : Disp) (k : Int) (H W : Nat) : Arr2 Int := ⟨H, W, fun x y => initAt d x y + k⟩

section
variable {w : World K} {user p0 mc : Fields} {out : List (Written K)} {H W : Nat} {dRow dCol : Disp} {rf rl cf cl : Int} {sr sc : Nat}
  {invalid : F K} {n hw : Nat} {me : Measure} {ker : List (F K × F K) → F K}

/-- The pixels of an execution on a region: the best of the pairs whose windows are in the crop, with the costs of the full images. -/
theorem Stages.tile (s : Stages w user p0 out) (wf : user.wf) (hdisk : DiskContract w H W) (hcrop : CropsWhole w H W)
    (hkeeps : PandoraKeeps w.pandora) (hzoom : w.run.zoom = zoomLinear) (hu : user.get "pipeline" = some (.obj p0))
    (he : p0.get "estimation" = none) (href : p0.get "refinement" = none) (hmc : p0.get "matching_cost" = some (.obj mc))
    (hm : MatcherIs w mc n me (Pandora.windowCost hw ker)) (ask : Asks w user H W dRow dCol rf rl cf cl sr sc invalid)
    (hl : rl < H ∧ cl < W) {R : Roi} (hR : s.roi = some R) {lj rj : J} {full fullR : Img K} (l1 : s.inp.get "left" = some lj)
    (l2 : s.inp.get "right" = some rj) (f1 : w.files.read lj none = .ok full) (f2 : w.files.read rj none = .ok fullR)
    (hnd : fullR.noData ≠ .nan) {i j : Nat} (hi : i < s.files.row.h) (hj : j < s.files.row.w) {r c : Int}
    (er : r = rf + (i : Int) * sr) (ec : c = cf + (j : Int) * sc) (hin : InsideRegion hw rf rl cf cl r c) :
    BestPair me (AskedPair dRow dCol n r c) (fun dr dc => Pandora.windowCost hw ker full (slabImg zoomLinear fullR n dr)
        (wholeGrid dCol (-dCol.range) H W) (wholeGrid dCol dCol.range H W) r.toNat c.toNat dc) invalid
      (s.files.row.values i j) (s.files.col.values i j) (s.files.score.values i j) := by
  obtain ⟨hn, dRow1, dCol1, gmin, gmax, -, i1, i2, i3, i4, i5, -, icov, -, i6⟩ := s.winner hdisk hkeeps wf hu ask.zone hl href hmc hm
  obtain ⟨j1, j2⟩ := i1 he
  obtain ⟨⟨rfl, rfl⟩, ⟨rfl, rfl⟩, rfl⟩ := s.asked wf hu he ask j1 j2
  obtain ⟨-, -, lj', rj', l1', l2', l3, l4⟩ := created_input s.datasets
  rw [l1, Option.some.injEq] at l1'
  rw [l2, Option.some.injEq] at l2'
  subst l1' l2'
  rw [hR] at l3 l4 i2
  obtain ⟨k1, k2, k3, k4, k5⟩ := i2
  obtain ⟨R0, q1, q2⟩ := s.region hR j1 j2
  have kR : CropOk s.right.img R H W := hdisk.crop _ _ _ l4 k1.rows k1.cols k1.margins
  have hcl := hcrop _ _ _ _ f1 l3 k1
  have hcr := hcrop _ _ _ _ f2 l4 kR
  obtain ⟨w1, w2, w3, w4⟩ := hdisk.whole _ _ f1
  obtain ⟨w1', w2', w3', w4'⟩ := hdisk.whole _ _ f2
  have er' : s.right.img.row0 = s.left.img.row0 := by rw [kR.row0, k1.row0]
  have ec' : s.right.img.col0 = s.left.img.col0 := by rw [kR.col0, k1.col0]
  rw [er', ec'] at hcr
  have p1 : 0 ≤ s.left.img.row0 := by rw [k1.row0]; exact le_max_left _ _
  have p2 : 0 ≤ s.left.img.col0 := by rw [k1.col0]; exact le_max_left _ _
  obtain ⟨⟨a, b, ha, hb, ea, eb⟩, key⟩ := i6 i hi j hj
  rw [hzoom, ← er, ← ec] at key
  rw [← er] at ea
  rw [← ec] at eb
  have ta : (r - s.left.img.row0).toNat = a := by omega
  have tb : (c - s.left.img.col0).toNat = b := by omega
  have ta' : r.toNat = a + s.left.img.row0.toNat := by omega
  have tb' : c.toNat = b + s.left.img.col0.toNat := by omega
  rw [ta, tb] at key
  have hg : gmin.get a b = (wholeGrid dCol (-dCol.range) H W).get (a + s.left.img.row0.toNat) (b + s.left.img.col0.toNat) ∧
      gmax.get a b = (wholeGrid dCol dCol.range H W).get (a + s.left.img.row0.toNat) (b + s.left.img.col0.toNat) := by
    rw [i4 a ha b hb, i5 a ha b hb]
    simp only [wholeGrid]
    push_cast
    rw [Int.toNat_of_nonneg p1, Int.toNat_of_nonneg p2, add_comm (a : Int), add_comm (b : Int)]
    exact ⟨rfl, rfl⟩
  obtain ⟨⟨t1, t2, t3, t4, -⟩, -, c1, c2⟩ := C18_margins_cover_disparities R0 dCol dRow R R q2
  obtain ⟨⟨x1, x2⟩, x3, x4⟩ := hin
  refine best_congr (fun dr dc hask => ?_) key
  obtain ⟨⟨x, y, hx, hy⟩, a1, a2⟩ := hask
  by_cases hf : FitsIn hw s.left.img s.right.img a b dr dc
  · rw [ta', tb']
    exact (crop_cost hcl hcr hn ⟨x, hx⟩ hnd hg).1 hf
  · rw [(crop_cost hcl hcr hn ⟨x, hx⟩ hnd hg).2 hf]
    by_contra hne
    rw [ta', tb'] at hne
    have b0 := cost_fits hn ⟨x, hx⟩ hnd (by rw [w3, w3']) (by rw [w4, w4']) ⟨w1, w2⟩ (Ne.symm hne)
    rw [show ((a + s.left.img.row0.toNat : Nat) : Int) = r by omega, show ((b + s.left.img.col0.toNat : Nat) : Int) = c by omega] at b0
    obtain ⟨⟨b1, b2, b3, b4⟩, b5, b6, b7, b8⟩ := b0
    obtain ⟨d1, d2⟩ := asked_range_at icov.1 (r := r) (c := c) (by omega) (by omega) a1
    obtain ⟨d3, d4⟩ := asked_range_at icov.2 (r := r) (c := c) (by omega) (by omega) a2
    have m1 := (c2 (r - hw) _ (by omega) (by omega) d1).1
    have m2 := (c2 (r + hw) _ (by omega) (by omega) d2).2
    have m3 := (c1 (c - hw) _ (by omega) (by omega) d3).1
    have m4 := (c1 (c + hw) _ (by omega) (by omega) d4).2
    have z1 := k1.row0
    have z2 := k1.col0
    have z3 := k1.row1
    have z4 := k1.col1
    have z5 := k1.margins
    rw [fitsIn_zone i3.1 i3.2 ea eb] at hf
    refine hf ⟨⟨?_, ?_, ?_, ?_⟩, ?_, ?_, ?_, ?_⟩ <;> omega

/-- The completed sections of the two images hold what the user wrote. -/
theorem Stages.sections (s : Stages w user p0 out) (hw : user.wf) {inp l r : Fields} (hi : user.get "input" = some (.obj inp))
    (hl : inp.get "left" = some (.obj l)) (hr : inp.get "right" = some (.obj r)) :
    ∃ lj rj, s.inp.get "left" = some (.obj lj) ∧ s.inp.get "right" = some (.obj rj) ∧
      (∀ k v, l.get k = some v → v.isLeaf = true → lj.get k = some (readValue v)) ∧
      (∀ k v, r.get k = some v → v.isLeaf = true → rj.get k = some (readValue v)) := by
  have hin := s.input
  have hg : getConfigInput user = .cons "input" (.obj inp) .nil := by
    unfold getConfigInput
    rw [hi]
  rw [hg] at hin
  obtain ⟨-, inp', k1, k2⟩ := (C86_input _ _ _ _).1 hin
  rw [s.inputIs, Option.some.injEq, J.obj.injEq] at k1
  subst k1
  obtain ⟨-, ⟨v, v1, fl, rfl, -⟩, ⟨v', v1', fr, rfl, -⟩, -⟩ := k2
  have key : ∀ {side : String} {u c : Fields}, inp.get side = some (.obj u) → s.inp.get side = some (.obj c) → ∀ k v, u.get k = some v →
      v.isLeaf = true → c.get k = some (readValue v) := by
    intro side u c hu hc k v hk hv
    have := C37_input_values_partial w.env (getConfigInput user) s.cin _ (getConfigInput_wf hw) s.input ["input", side, k] v
      (by simp [J.at, getConfigInput_get, hi, hu, hk]) hv
    simpa [J.at, s.inputIs, hc] using this
  exact ⟨fl, fr, v1, v1', key hl v1, key hr v1'⟩

/-- The region of the execution is read when the user writes one. -/
theorem Stages.roi_some (s : Stages w user p0 out) {rv : J} (hroi : user.get "ROI" = some rv) : ∃ R, s.roi = some R := by
  have r1 := s.roiFor
  cases hx : s.roi with
  | none =>
    rw [hx] at r1
    unfold RoiFor at r1
    rw [hroi] at r1; simp at r1
  | some R => exact ⟨R, rfl⟩

end

/-- C117 (partial): two executions on two regions of interest of the same images give the same values at the pixels they share whose
window is inside both regions, whatever the steps, the two regions and the two invalid values. Missing: the pixels at less than half a
window from the border of one of the regions (`C117_false`). -/
theorem C117_tiles_agree_partial (w : World K) (user user' p0 p0' mc mc' inp l r : Fields) (rv rv' : J) (out out' : List (Written K))
    (H W : Nat) (dRow dCol : Disp) (rf rl cf cl rf' rl' cf' cl' : Int) (sr sc sr' sc' : Nat) (invalid invalid' : F K) (n hw : Nat)
    (me : Measure) (ker : List (F K × F K) → F K) (wf : user.wf) (wf' : user'.wf)
    (hdisk : DiskContract w H W) (hcrop : CropsWhole w H W) (hwhole : WholeReadable w) (hpan : PandoraContract w)
    (hkeeps : PandoraKeeps w.pandora) (hzoom : w.run.zoom = zoomLinear)
    (hu : user.get "pipeline" = some (.obj p0)) (hu' : user'.get "pipeline" = some (.obj p0'))
    (he : p0.get "estimation" = none) (he' : p0'.get "estimation" = none)
    (hmc : p0.get "matching_cost" = some (.obj mc)) (hmc' : p0'.get "matching_cost" = some (.obj mc'))
    (same : SameMatcher w user user' p0 p0' mc mc' n me (Pandora.windowCost hw ker))
    (hi0 : user'.get "input" = some (.obj inp)) (hleft : inp.get "left" = some (.obj l)) (hright : inp.get "right" = some (.obj r))
    (hroi : user.get "ROI" = some rv) (hroi' : user'.get "ROI" = some rv')
    (ask : Asks w user H W dRow dCol rf rl cf cl sr sc invalid)
    (ask' : Asks w user' H W dRow dCol rf' rl' cf' cl' sr' sc' invalid') (hl : rl < H ∧ cl < W) (hl' : rl' < H ∧ cl' < W)
    (h : Main.main w user = (out, none)) (h' : Main.main w user' = (out', none)) :
    ∃ files rest files' rest' full fullR, out = .rasters files :: rest ∧ out' = .rasters files' :: rest' ∧
      ImagesRead w l r none full fullR ∧
      (fullR.noData ≠ .nan → ∀ i j i' j', i < files.row.h → j < files.row.w → i' < files'.row.h → j' < files'.row.w →
        rf + (i : Int) * sr = rf' + (i' : Int) * sr' → cf + (j : Int) * sc = cf' + (j' : Int) * sc' →
        InsideRegion hw rf rl cf cl (rf + (i : Int) * sr) (cf + (j : Int) * sc) →
        InsideRegion hw rf' rl' cf' cl' (rf + (i : Int) * sr) (cf + (j : Int) * sc) →
        SamePixel invalid invalid' (files.row.values i j) (files.col.values i j) (files.score.values i j)
          (files'.row.values i' j') (files'.col.values i' j') (files'.score.values i' j')) := by
  have hpd : ∀ {u p : Fields} {a b c d : Int} {x y : Nat} {iv : F K}, u.get "pipeline" = some (.obj p) →
      Asks w u H W dRow dCol a b c d x y iv → "disparity" ∈ p.keys := by
    intro u p a b c d x y iv hp hk
    obtain ⟨pl, mc, disp, a1, a2, a3, -⟩ := hk.steps
    rw [hp, Option.some.injEq, J.obj.injEq] at a1
    subst a1
    exact (Fields.get_isSome _ _).1 (by rw [a3]; rfl)
  obtain ⟨s⟩ := main_stages w user p0 out wf hpan hu (hpd hu ask) h
  obtain ⟨s'⟩ := main_stages w user' p0' out' wf' hpan hu' (hpd hu' ask') h'
  obtain ⟨R, hR⟩ := s.roi_some hroi
  obtain ⟨R', hR'⟩ := s'.roi_some hroi'
  have hinp : s.inp = s'.inp := by
    have hin := s.input
    have hin' := s'.input
    have hg : getConfigInput user = getConfigInput user' := by unfold getConfigInput; rw [same.input]
    have hge : givesEstimation p0 = givesEstimation p0' := by unfold givesEstimation; rw [he, he']
    rw [hg, hge, hin', Except.ok.injEq] at hin
    have hi := s.inputIs
    rw [← hin, s'.inputIs, Option.some.injEq, J.obj.injEq] at hi
    exact hi.symm
  obtain ⟨-, -, lj, rj, l1, l2, l3, l4⟩ := created_input s.datasets
  rw [hR] at l3 l4
  obtain ⟨full, f1⟩ := hwhole _ _ _ l3
  obtain ⟨fullR, f2⟩ := hwhole _ _ _ l4
  refine ⟨s.files, _, s'.files, _, full, fullR, s.outIs, s'.outIs, ?_, fun hnd i j i' j' hi hj hi' hj' e1 e2 n1 n2 => ?_⟩
  · obtain ⟨lj', rj', g1, g2, g3, g4⟩ := s.sections wf (same.input.trans hi0) hleft hright
    rw [l1, Option.some.injEq] at g1
    rw [l2, Option.some.injEq] at g2
    subst g1 g2
    exact ⟨lj', rj', g3, g4, f1, f2⟩
  · exact best_same
      (s.tile wf hdisk hcrop hkeeps hzoom hu he same.noRefinement.1 hmc same.matcher.1 ask hl hR l1 l2 f1 f2 hnd hi hj rfl rfl n1)
      (s'.tile wf' hdisk hcrop hkeeps hzoom hu' he' same.noRefinement.2 hmc' same.matcher.2 ask' hl' hR' (hinp ▸ l1) (hinp ▸ l2) f1 f2 hnd
        hi' hj' e1 e2 n2)

/-! ### Counterexample and non-vacuity -/

/-- The full statement of C117: the two executions give the same values at every pixel they share. -/
def C117Statement : Prop :=
  ∀ (w : World ℚ) (user user' p0 p0' mc mc' inp l r : Fields) (rv rv' : J) (out out' : List (Written ℚ))
    (H W : Nat) (dRow dCol : Disp) (rf rl cf cl rf' rl' cf' cl' : Int) (sr sc sr' sc' : Nat) (invalid invalid' : F ℚ) (n hw : Nat)
    (me : Measure) (ker : List (F ℚ × F ℚ) → F ℚ), user.wf → user'.wf → DiskContract w H W → CropsWhole w H W → WholeReadable w →
    PandoraContract w → PandoraKeeps w.pandora → w.run.zoom = zoomLinear →
    user.get "pipeline" = some (.obj p0) → user'.get "pipeline" = some (.obj p0') →
    p0.get "estimation" = none → p0'.get "estimation" = none →
    p0.get "matching_cost" = some (.obj mc) → p0'.get "matching_cost" = some (.obj mc') →
    SameMatcher w user user' p0 p0' mc mc' n me (Pandora.windowCost hw ker) →
    user'.get "input" = some (.obj inp) → inp.get "left" = some (.obj l) → inp.get "right" = some (.obj r) →
    user.get "ROI" = some rv → user'.get "ROI" = some rv' →
    Asks w user H W dRow dCol rf rl cf cl sr sc invalid → Asks w user' H W dRow dCol rf' rl' cf' cl' sr' sc' invalid' →
    rl < H ∧ cl < W → rl' < H ∧ cl' < W → Main.main w user = (out, none) → Main.main w user' = (out', none) →
    ∃ files rest files' rest' full fullR, out = .rasters files :: rest ∧ out' = .rasters files' :: rest' ∧
      ImagesRead w l r none full fullR ∧
      (fullR.noData ≠ .nan → ∀ i j i' j', i < files.row.h → j < files.row.w → i' < files'.row.h → j' < files'.row.w →
        rf + (i : Int) * sr = rf' + (i' : Int) * sr' → cf + (j : Int) * sc = cf' + (j' : Int) * sc' →
        SamePixel invalid invalid' (files.row.values i j) (files.col.values i j) (files.score.values i j)
          (files'.row.values i' j') (files'.col.values i' j') (files'.score.values i' j'))

theorem exWorldOf_whole (half rows : Nat) : WholeReadable (exWorldOf half rows) := fun _ _ _ _ => ⟨_, rfl⟩

/-- The rows `a` to `b`. -/
def exUserTile (input : J) (a b : Int) : Fields := dict [("input", input),
  ("ROI", .obj (dict [("row", .obj (dict [("first", .int a), ("last", .int b)])), ("col", .obj (dict [("first", .int 0), ("last", .int 2)]))])),
  ("pipeline", .obj (exPipeline none 1 1 none))]

theorem exUserTile_zone (input : J) (a b : Int) : ZoneIs (exUserTile input a b) 5 3 a b 0 2 :=
  .inl ⟨_, rfl, _, _, _, _, _, _, _, rfl, rfl, rfl, rfl, rfl, rfl, rfl, .inl rfl, .inl rfl, .inl rfl, .inl rfl⟩

theorem exUserTall_wf : (exUserTile (.obj exInputOne) 1 3).wf := by
  simp [exUserTile, exInputOne, exPipeline, dict, Fields.append, Fields.wf, J.wf, Fields.keys]

theorem exUserTall_ok :
    Main.main exWorldW (exUserTile (.obj exInputOne) 1 3) = ((Main.main exWorldW (exUserTile (.obj exInputOne) 1 3)).1, none) := by
  have : (Main.main exWorldW (exUserTile (.obj exInputOne) 1 3)).2 = none := by
    obtain ⟨m, cfg, h⟩ := accepted_ok (w := exWorldOf 1) (user := exUserTile (.obj exInputOne) 1 3) (by decide +kernel)
    refine C81_accepted_runs_partial exWorldW _ _ _ cfg m 5 3 1 3 0 2 1 1 exUserTall_wf exWorldW_contract rfl (by decide) rfl
      (.inl ⟨_, _, rfl, .inl rfl, .inl rfl⟩) (exUserTile_zone _ _ _) (by decide) ?_ ?_ (.inl ⟨rfl, rfl⟩) h
    · intro he
      exact absurd rfl he
    · intro v hv
      have : (exPipeline none 1 1 none).get "refinement" = none := by decide
      exact absurd (this.symm.trans hv) (by simp)
  rw [← this]

theorem exUserTall_asks : Asks exWorldW (exUserTile (.obj exInputOne) 1 3) 5 3 ⟨.const 1, 0⟩ ⟨.const 0, 0⟩ 1 3 0 2 1 1 .nan :=
  ⟨⟨_, rfl, ⟨_, _, _, rfl, rfl, rfl, .inl rfl, .inl ⟨_, .inl rfl, rfl⟩⟩, ⟨_, _, _, rfl, rfl, rfl, .inl rfl, .inl ⟨_, .inl rfl, rfl⟩⟩⟩,
    exUserTile_zone _ _ _,
    ⟨_, _, _, rfl, rfl, rfl, .inl ⟨_, _, rfl, .inl rfl, .inl rfl⟩, .inl ⟨_, rfl, .inr (.inr (.inl ⟨rfl, rfl⟩))⟩⟩⟩

theorem exUserLow_wf : (exUserTile (exInput (some (.int 0))) 2 3).wf := by
  simp [exUserTile, exInput, exPipeline, dict, Fields.append, Fields.wf, J.wf, Fields.keys]

theorem exUserLow_ok : Main.main exWorldS (exUserTile (exInput (some (.int 0))) 2 3) =
    ((Main.main exWorldS (exUserTile (exInput (some (.int 0))) 2 3)).1, none) := by
  have : (Main.main exWorldS (exUserTile (exInput (some (.int 0))) 2 3)).2 = none := by
    obtain ⟨m, cfg, h⟩ := accepted_ok (w := exWorldI) (user := exUserTile (exInput (some (.int 0))) 2 3) (by decide +kernel)
    refine C81_accepted_runs_partial exWorldS _ _ _ cfg m 5 3 2 3 0 2 1 1 exUserLow_wf exWorldS_contract rfl (by decide) rfl
      (.inl ⟨_, _, rfl, .inl rfl, .inl rfl⟩) (exUserTile_zone _ _ _) (by decide) ?_ ?_ (.inl ⟨rfl, rfl⟩) h
    · intro he
      exact absurd rfl he
    · intro v hv
      have : (exPipeline none 1 1 none).get "refinement" = none := by decide
      exact absurd (this.symm.trans hv) (by simp)
  rw [← this]

theorem exUserLow_asks : Asks exWorldS (exUserTile (exInput (some (.int 0))) 2 3) 5 3 ⟨.const 0, 1⟩ ⟨.const 0, 1⟩ 2 3 0 2 1 1 .nan :=
  ⟨⟨_, rfl, ⟨_, _, _, rfl, rfl, rfl, .inl rfl, .inl ⟨_, .inl rfl, rfl⟩⟩, ⟨_, _, _, rfl, rfl, rfl, .inl rfl, .inl ⟨_, .inl rfl, rfl⟩⟩⟩,
    exUserTile_zone _ _ _,
    ⟨_, _, _, rfl, rfl, rfl, .inl ⟨_, _, rfl, .inl rfl, .inl rfl⟩, .inl ⟨_, rfl, .inr (.inr (.inl ⟨rfl, rfl⟩))⟩⟩⟩

/-- The hypotheses of C117 hold for the rows 1 and 2 and the rows 2 and 3 of the same images: with windows of one pixel, the row 2 is
inside both. -/
example := C117_tiles_agree_partial exWorldS exUserS (exUserTile (exInput (some (.int 0))) 2 3) _ _ _ _ _ _ _ _ _ _ _ 5 3 _ _ 1 2 0 2 2 3 0 2
  1 1 1 1 .nan .nan 1 0 .min sad exUserS_wf exUserLow_wf exWorldS_contract.disk (exWorldOf_crops 0 5) (exWorldOf_whole 0 5)
  exWorldS_contract.pandora exWorldS_contract.keeps rfl rfl rfl rfl rfl rfl rfl ⟨rfl, ⟨rfl, rfl⟩, exUserS_matcher, exUserS_matcher⟩ rfl rfl rfl
  rfl rfl exUserS_asks exUserLow_asks (by decide) (by decide) exUserS_ok exUserLow_ok

example : InsideRegion 0 1 2 0 2 (1 + ((1 : Nat) : Int) * (1 : Nat)) (0 + ((1 : Nat) : Int) * (1 : Nat)) ∧
    InsideRegion 0 2 3 0 2 (1 + ((1 : Nat) : Int) * (1 : Nat)) (0 + ((1 : Nat) : Int) * (1 : Nat)) := by
  simp [InsideRegion]

/-- The full statement is false: at the row 2 of the region of the rows 1 and 2 the displaced window is not in the crop and the pixel is
invalid; with the region of the rows 1 to 3 the same pixel has a displacement, with a score of 0. -/
theorem C117_false : ¬ C117Statement := by
  intro hst
  obtain ⟨files, rest, files', rest', full, fullR, o1, o2, r1, key⟩ := hst exWorldW exUserRegion (exUserTile (.obj exInputOne) 1 3) _ _ _ _ _ _ _ _
    _ _ _ 5 3 _ _ 1 2 0 2 1 3 0 2 1 1 1 1 .nan .nan 1 1 .min sad exUserRegion_wf exUserTall_wf exWorldW_contract.disk (exWorldOf_crops 1 5)
    (exWorldOf_whole 1 5) exWorldW_contract.pandora exWorldW_contract.keeps rfl rfl rfl rfl rfl rfl rfl ⟨rfl, ⟨rfl, rfl⟩, exW_matcher, exW_matcher⟩
    rfl rfl rfl rfl rfl exUserRegion_asks exUserTall_asks (by decide) (by decide) exUserRegion_ok exUserTall_ok
  obtain ⟨g, grest, g', grest', R, fl, fr, crop, cropR, cost, p1, p2, p3, -, ⟨k1, k2, k3, k4, k5⟩, ⟨R0, cu, nc, q1, q2⟩, -, -, gkey⟩ :=
    C90_roi_restricts exWorldW exUserRegion exUserFull _ _ _ _ _ _ _ _ _ _ 5 3 _ _ 1 2 0 2
    1 1 1 1 .nan 1 1 .min sad exUserRegion_wf exUserFull_wf exWorldW_contract.disk (exWorldOf_crops 1 5) exWorldW_contract.pandora
    exWorldW_contract.keeps rfl rfl rfl rfl rfl rfl rfl ⟨rfl, ⟨rfl, rfl⟩, exW_matcher, exW_matcher⟩ rfl rfl rfl rfl rfl exUserRegion_asks
    exUserFull_asks (by decide) exUserRegion_ok exUserFull_ok
  obtain ⟨m, mrest, m', mrest', ml, mr, m1, m2, m3, mkey⟩ := C90_same_inside_partial exWorldW (exUserTile (.obj exInputOne) 1 3) exUserFull _ _ _ _
    _ _ _ _ _ _ 5 3 _ _ 1 3 0 2 1 1 1 1 .nan 1 1 .min sad exUserTall_wf exUserFull_wf exWorldW_contract.disk (exWorldOf_crops 1 5)
    exWorldW_contract.pandora exWorldW_contract.keeps rfl rfl rfl rfl rfl rfl rfl ⟨rfl, ⟨rfl, rfl⟩, exW_matcher, exW_matcher⟩ rfl rfl rfl rfl rfl
    exUserTall_asks exUserFull_asks (by decide) exUserTall_ok exUserFull_ok
  obtain ⟨t, trest, roi, left, right, s1, s2, s3, s4⟩ := C88_translation_found exWorldW exUserFull _ _ _ _ _ _ 5 3 _ _ 0 4 0 2 1 1 .nan 1 1 _
    exUserFull_wf exWorldW_contract.disk exWorldW_contract.pandora exWorldW_contract.keeps sad_dissimilarity sad_onlyEqual
    rfl rfl rfl rfl exW_matcher exUserFull_asks (by decide) rfl rfl rfl exUserFull_ok
  obtain ⟨z, zrest, z1, z2, -⟩ := C78_files_answer_user exWorldW exUserRegion _ _ 5 3 _ _ 1 2 0 2 1 1 .nan (some ⟨1, 0, 100, 0, -1, 200⟩)
    exUserRegion_wf exWorldW_contract.disk exWorldW_contract.pandora rfl rfl rfl exUserRegion_asks (by decide) ⟨_, _, _, rfl, rfl, rfl, by
      intro g hg; simp [exWorldW, exWorldOf, exWorld, isLeftSection, hg, readValue]⟩ exUserRegion_ok
  obtain ⟨z', zrest', z1', z2', -⟩ := C78_files_answer_user exWorldW (exUserTile (.obj exInputOne) 1 3) _ _ 5 3 _ _ 1 3 0 2 1 1 .nan
    (some ⟨1, 0, 100, 0, -1, 200⟩)
    exUserTall_wf exWorldW_contract.disk exWorldW_contract.pandora rfl rfl rfl exUserTall_asks (by decide) ⟨_, _, _, rfl, rfl, rfl, by
      intro g hg; simp [exWorldW, exWorldOf, exWorld, isLeftSection, hg, readValue]⟩ exUserTall_ok
  obtain ⟨y', yrest', y1', y2', -⟩ := C78_files_answer_user exWorldW exUserFull _ _ 5 3 _ _ 0 4 0 2 1 1 .nan (some ⟨1, 0, 100, 0, -1, 200⟩)
    exUserFull_wf exWorldW_contract.disk exWorldW_contract.pandora rfl rfl rfl exUserFull_asks (by decide) ⟨_, _, _, rfl, rfl, rfl, by
      intro g hg; simp [exWorldW, exWorldOf, exWorld, isLeftSection, hg, readValue]⟩ exUserFull_ok
  rw [o1, List.cons.injEq, Written.rasters.injEq] at p1 z1
  rw [o2, List.cons.injEq, Written.rasters.injEq] at z1' m1
  rw [p2, List.cons.injEq, Written.rasters.injEq] at s1 y1' m2
  obtain ⟨rfl, -⟩ := p1
  obtain ⟨rfl, -⟩ := s1
  obtain ⟨rfl, -⟩ := z1
  obtain ⟨rfl, -⟩ := z1'
  obtain ⟨rfl, -⟩ := y1'
  obtain ⟨rfl, -⟩ := m1
  obtain ⟨rfl, -⟩ := m2
  have hz := z2 files.row (by simp)
  have hz' := z2' files'.row (by simp)
  have hy := y2' g'.row (by simp)
  have b1 := (hz.rows 1).2 (by decide)
  have b2 := (hz.cols 1).2 (by decide)
  have b3 := (hz'.rows 1).2 (by decide)
  have b4 := (hz'.cols 1).2 (by decide)
  have b5 := (hy.rows 2).2 (by decide)
  have b6 := (hy.cols 1).2 (by decide)
  have hnd : ∀ {l a b}, ImagesRead exWorldW l (dict [("img", .str "right.tif"), ("nodata", .str "NaN")]) none a b → b.noData ≠ .nan := by
    rintro l a b ⟨lj, rj, -, e2, -, e4⟩
    rw [exW_right (e2 "img" (.str "right.tif") rfl rfl), Except.ok.injEq] at e4
    subst e4
    simp [exRightImg]
  have v := key (hnd r1) 1 1 1 1 b1 b2 b3 b4 (by decide) (by decide)
  obtain ⟨-, -, u⟩ := gkey (hnd p3) 1 1 2 1 b1 b2 b5 b6 (by decide) (by decide)
  -- the short region
  have hnan := (u.invalid (by
    rintro dr dc ⟨⟨-, a1, a2⟩, -, f1, f2, -⟩
    exfalso
    simp only [getRoiProcessing, dispBounds, q1, exWorldW, Except.ok.injEq, Prod.mk.injEq] at q2
    have hR := q2.1
    have hd : R.margins.down = 1 := by rw [← hR]; rfl
    have h1 := k1.row1
    simp only [initAt] at a1
    have : dr = 1 := le_antisymm (by simpa using a1.2) (by simpa using a1.1)
    subst this
    rw [Int.ceil_one] at f2
    omega)).2.2
  -- the tall region
  have hzero : files'.score.values 1 1 = .fin 0 := by
    rw [(mkey (hnd m3) 1 1 2 1 b3 b4 b5 b6 (by decide) (by decide) (by decide) (by decide) (by decide) (by decide)).2.2]
    have himg : left = exLeftImg ∧ right = exRightImg := by
      obtain ⟨lj, rj, e1, e2, e3, e4⟩ := s2
      rw [exW_left (e1 "img" _ rfl rfl), Except.ok.injEq] at e3
      rw [exW_right (e2 "img" _ rfl rfl), Except.ok.injEq] at e4
      cases roi with
      | none => exact ⟨e3.symm, e4.symm⟩
      | some R' =>
        obtain ⟨⟨-, -, m3, -⟩, w1, w2, w3, w4⟩ := s3
        have x1 : max 0 (R'.rowFirst - R'.margins.up) = 0 := by omega
        have x2 : max 0 (R'.colFirst - R'.margins.left) = 0 := by omega
        have x3 : min ((5 : Nat) : Int) (R'.rowLast + R'.margins.down + 1) = 5 := by omega
        have x4 : min ((3 : Nat) : Int) (R'.colLast + R'.margins.right + 1) = 3 := by omega
        rw [← e3, ← e4]
        simp only [cropImg, exLeftImg, exRightImg, x1, x2, x3, x4]
        exact ⟨rfl, rfl⟩
    obtain ⟨rfl, rfl⟩ := himg
    refine (s4 2 b5 1 b6 2 1 (by decide) (by decide) 1 0 ?_ ?_ ?_ ?_).1
    · intro a b a' b' _ _ _ _ ha hb
      have hb' : b' = b := by omega
      have ha' : a' = a + 1 := by omega
      subst ha' hb'
      simp only [exLeftImg, exRightImg, F.fin.injEq]
      push_cast
      ring
    · simp [BothInside, exLeftImg, exRightImg]
    · refine ⟨fun x y _ _ _ _ => ⟨⟨_, rfl⟩, ?_, rfl⟩, rfl⟩
      simp only [exLeftImg, exRightImg, ne_eq, F.fin.injEq]
      intro h
      have : (0 : ℚ) ≤ 10 * (x : ℚ) + (y : ℚ) := by positivity
      linarith
    · simp [InIntervals, initAt]
  rw [hnan, hzero] at v
  rcases v with ⟨-, -, -, -, -, v⟩ | ⟨-, -, v⟩
  · exact absurd v (by simp)
  · exact absurd v (by simp)

end Verif.Props
