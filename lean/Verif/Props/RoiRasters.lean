import Verif.Spec.RoiRasters
import Verif.Props.Steps

/-!
# C90: the rasters of a region of interest and those of the full images
-/

namespace Verif.Props

open Verif Verif.Config Verif.Machine Verif.ImgTools Verif.MatchingCost Verif.Disparity Verif.Estimation Verif.Run Verif.Main Verif.Spec
  Verif.Save Verif.Statistics

set_option linter.unusedSectionVars false

variable {K : Type} [Field K] [LinearOrder K] [IsStrictOrderedRing K] [FloorRing K]

/-- Pairs without cost can be forgotten. -/
theorem BestPair.restrict {m : Measure} {asked fits : K → K → Prop} {c1 c2 : K → K → F K} {invalid r c s : F K}
    (h : BestPair m asked c1 invalid r c s) (h1 : ∀ x y, asked x y → fits x y → c1 x y = c2 x y)
    (h2 : ∀ x y, asked x y → ¬ fits x y → c1 x y = .nan) : BestPair m (fun x y => asked x y ∧ fits x y) c2 invalid r c s := by
  have key : ∀ x y z, z ≠ .nan → ((asked x y ∧ c1 x y = z) ↔ ((asked x y ∧ fits x y) ∧ c2 x y = z)) := by
    intro x y z hz
    constructor
    · rintro ⟨a, e⟩
      have hf : fits x y := by
        by_contra hf
        rw [h2 x y a hf] at e
        exact hz e.symm
      exact ⟨⟨a, hf⟩, by rw [← h1 x y a hf]; exact e⟩
    · rintro ⟨⟨a, hf⟩, e⟩
      exact ⟨a, by rw [h1 x y a hf]; exact e⟩
  have hex : (∃ x y, (asked x y ∧ fits x y) ∧ c2 x y ≠ .nan) → ∃ x y, asked x y ∧ c1 x y ≠ .nan := by
    rintro ⟨x, y, ⟨a, hf⟩, e⟩
    exact ⟨x, y, a, by rw [h1 x y a hf]; exact e⟩
  refine ⟨fun hno => h.invalid fun x y a => ?_, fun he => ?_, fun he => ?_⟩
  · by_cases hf : fits x y
    · rw [h1 x y a hf]; exact hno x y ⟨a, hf⟩
    · exact h2 x y a hf
  · obtain ⟨⟨q1, x, y, q2⟩, q3⟩ := h.best (hex he)
    refine ⟨⟨q1, x, y, (key x y _ q1).1 q2⟩, ?_⟩
    rintro z ⟨hz, x', y', e⟩
    exact q3 z ⟨hz, x', y', (key x' y' z hz).2 e⟩
  · have hs := (h.best (hex he)).1.1
    obtain ⟨x, y, e1, e2, ⟨y', p1⟩, ⟨x', p2⟩, p3⟩ := h.smallest (hex he)
    refine ⟨x, y, e1, e2, ⟨y', (key _ _ _ hs).1 p1⟩, ⟨x', (key _ _ _ hs).1 p2⟩, fun a b h3 h4 => ?_⟩
    obtain ⟨g1, g2⟩ := (key a b _ hs).2 ⟨h3, h4⟩
    exact p3 a b g1 g2

/-- Fewer pairs, never a better score. -/
theorem BestPair.fewer {m : Measure} {asked fits : K → K → Prop} {cost : K → K → F K} {invalid r c s r' c' s' : F K}
    (h : BestPair m (fun x y => asked x y ∧ fits x y) cost invalid r c s) (h' : BestPair m asked cost invalid r' c' s') :
    (r = invalid ∧ c = invalid ∧ s = invalid) ∨ AtLeastAsGood m s' s := by
  by_cases hex : ∃ x y, (asked x y ∧ fits x y) ∧ cost x y ≠ .nan
  · right
    obtain ⟨⟨q1, x, y, ⟨q2, -⟩, q3⟩, -⟩ := h.best hex
    obtain ⟨x', y', ⟨a, -⟩, e⟩ := hex
    exact (h'.best ⟨x', y', a, e⟩).2 s ⟨q1, x, y, q2, q3⟩
  · left
    push Not at hex
    exact h.invalid hex

section
variable {full fullR crop cropR : Img K} {u v s hw : Nat} {ker : List (F K × F K) → F K}

/-- The cost on the crop: that of the full images when the windows are in the crop, none otherwise. -/
theorem crop_cost (hl : CropOf full crop u v) (hr : CropOf fullR cropR u v) (hs : 0 < s) {d e : K} (hd : ∃ k : Int, d * s = k)
    (hn : fullR.noData ≠ .nan) {gmin gmax gmin' gmax' : Arr2 Int} {a b : Nat}
    (hg : gmin'.get a b = gmin.get (a + u) (b + v) ∧ gmax'.get a b = gmax.get (a + u) (b + v)) :
    (FitsIn hw crop cropR a b d e → Pandora.windowCost hw ker crop (slabImg zoomLinear cropR s d) gmin' gmax' a b e =
      Pandora.windowCost hw ker full (slabImg zoomLinear fullR s d) gmin gmax (a + u) (b + v) e) ∧
    (¬ FitsIn hw crop cropR a b d e → Pandora.windowCost hw ker crop (slabImg zoomLinear cropR s d) gmin' gmax' a b e = .nan) := by
  constructor
  · intro hf
    obtain ⟨w1, w2⟩ := window_fits hl hr hs hd hg hf
    unfold Pandora.windowCost
    by_cases ok : Pandora.windowOk hw full (slabImg zoomLinear fullR s d) gmin gmax (a + u) (b + v) e
    · rw [if_pos ok, if_pos (w1.2 ok), w2]
    · rw [if_neg ok, if_neg (fun q => ok (w1.1 q))]
  · intro hf
    unfold Pandora.windowCost
    rw [if_neg]
    intro ok
    exact hf (fits_of_windowOk hl hr hs hd hg hn ok)

theorem fitsIn_zone (hh : cropR.h = crop.h) (hw' : cropR.w = crop.w) {a b : Nat} {d e : K} {r c : Int} (hr : r = crop.row0 + a)
    (hc : c = crop.col0 + b) : FitsIn hw crop cropR a b d e ↔ FitsZone hw crop r c d e := by
  have e1 : ⌊(b : K) + e⌋ = b + ⌊e⌋ := Int.floor_natCast_add _ _
  have e2 : ⌈(b : K) + e⌉ = b + ⌈e⌉ := by rw [add_comm, Int.ceil_add_natCast, add_comm]
  unfold FitsIn FitsZone
  rw [e1, e2, hh, hw', hr, hc]
  constructor
  · rintro ⟨h1, ⟨h2, h3⟩, h4, h5⟩; omega
  · rintro ⟨h1, h2, h3, h4, h5⟩; omega

/-- A window which has a cost in the full images is in their zone. -/
theorem cost_fits (hs : 0 < s) {d e : K} (hd : ∃ k : Int, d * s = k) (hn : fullR.noData ≠ .nan) (hh : fullR.h = full.h) (hw' : fullR.w = full.w)
    (h0 : full.row0 = 0 ∧ full.col0 = 0) {gmin gmax : Arr2 Int} {a b : Nat}
    (h : Pandora.windowCost hw ker full (slabImg zoomLinear fullR s d) gmin gmax a b e ≠ .nan) : FitsZone hw full a b d e := by
  rw [← fitsIn_zone (cropR := fullR) hh hw' (a := a) (b := b) (by rw [h0.1]; omega) (by rw [h0.2]; omega)]
  by_contra hf
  exact h ((crop_cost (CropOf.self full) (CropOf.self fullR) hs hd hn ⟨rfl, rfl⟩).2 hf)

end

section
variable {w : World K} {user p0 : Fields} {out : List (Written K)} {H W : Nat} {rf rl cf cl : Int}

/-- The region of the run, made by `get_roi_processing` from the recorded margins and the disparities asked. -/
theorem Stages.region (s : Stages w user p0 out) {R : Roi} (hR : s.roi = some R) {dRow dCol : Disp}
    (hr : IsDisp w.files s.inp "row_disparity" dRow) (hc : IsDisp w.files s.inp "col_disparity" dCol) :
    ∃ R0, R0.margins = w.globalMargins s.m.data.cumulative s.m.data.nonCumulative ∧ getRoiProcessing R0 dCol dRow = .ok (R, R) := by
  obtain ⟨col, row, k1, k2, k3⟩ := s.roiIs
  exact region_made k1 k2 k3 hr hc R hR

end

/-- The disparities of a pair are between those of the configuration. -/
theorem asked_range {d : Disp} {H W : Nat} (hcov : Covers d 0 0 H W) {r c : Int} (hr : 0 ≤ r ∧ r < H) (hc : 0 ≤ c ∧ c < W) {x : K}
    (h : ((initAt d r c - d.range : Int) : K) ≤ x ∧ x ≤ ((initAt d r c + d.range : Int) : K)) :
    InDispRange d ⌊x⌋ ∧ InDispRange d ⌈x⌉ := by
  have a1 : initAt d r c - d.range ≤ ⌊x⌋ := Int.le_floor.2 h.1
  have a2 : ⌈x⌉ ≤ initAt d r c + d.range := Int.ceil_le.2 h.2
  have a3 := Int.floor_le_ceil x
  unfold InDispRange
  unfold Covers at hcov
  unfold initAt at a1 a2
  cases hi : d.init with
  | const i =>
    rw [hi] at a1 a2
    simp only at a1 a2 ⊢
    omega
  | grid g =>
    rw [hi] at a1 a2 hcov
    simp only at a1 a2 hcov ⊢
    exact ⟨⟨r.toNat, by omega, c.toNat, by omega, by omega⟩, ⟨r.toNat, by omega, c.toNat, by omega, by omega⟩⟩

section
variable {w : World K} {user p0 : Fields} {out : List (Written K)} {H W : Nat} {dRow dCol : Disp} {rf rl cf cl : Int} {sr sc : Nat} {invalid : F K}

/-- What the run uses is what the user asks. -/
theorem Stages.asked (s : Stages w user p0 out) (hw : user.wf) (hu : user.get "pipeline" = some (.obj p0)) (he : p0.get "estimation" = none)
    (ask : Asks w user H W dRow dCol rf rl cf cl sr sc invalid) {dRow' dCol' : Disp} (j1 : IsDisp w.files s.inp "row_disparity" dRow')
    (j2 : IsDisp w.files s.inp "col_disparity" dCol') :
    (dRow = dRow' ∧ dCol = dCol') ∧ (sr = s.plan.cfg.stepRow ∧ sc = s.plan.cfg.stepCol) ∧ invalid = s.plan.invalid := by
  obtain ⟨pl, mc, disp, a1, a2, a3, a4, a5⟩ := ask.steps
  rw [hu, Option.some.injEq, J.obj.injEq] at a1
  subst a1
  obtain ⟨mc', m1, m2⟩ := s.reads.matching
  rw [a2, Option.some.injEq, J.obj.injEq] at m1
  subst m1
  obtain ⟨disp', n1, n2⟩ := s.reads.disparity
  rw [a3, Option.some.injEq, J.obj.injEq] at n1
  subst n1
  obtain ⟨inp', b1, b2, b3⟩ := ask.disparities
  have hge : givesEstimation p0 = false := by unfold givesEstimation; rw [he]
  have hin := s.input
  rw [hge] at hin
  obtain ⟨c, c1, c2, -, -⟩ := checkInputSection_ok hin
  simp only [Bool.false_eq_true, if_false] at c2
  subst c2
  obtain ⟨uf, u1, u2, u3⟩ := input_section_get (getConfigInput_wf hw) c1 s.inputIs (by rw [getConfigInput_get, b1]; rfl)
  rw [getConfigInput_get, b1, Option.some.injEq, J.obj.injEq] at u1
  subst u1
  exact ⟨⟨isDisp_checked u2 (u3 _ (by decide) (by decide)) b2 j1, isDisp_checked u2 (u3 _ (by decide) (by decide)) b3 j2⟩,
    StepIs.unique a4 m2, InvalidIs.unique a5 n2⟩

end

/-- The rasters of a region of interest: the best pairs among those whose windows are in the crop, with the costs of the full images. -/
theorem C90_roi_restricts (w : World K) (user user' p0 p0' mc mc' inp l r : Fields) (rv : J) (out out' : List (Written K)) (H W : Nat)
    (dRow dCol : Disp) (rf rl cf cl : Int) (sr sc sr' sc' : Nat) (invalid : F K) (n hw : Nat) (me : Measure)
    (ker : List (F K × F K) → F K) (wf : user.wf) (wf' : user'.wf)
    (hdisk : DiskContract w H W) (hcrop : CropsWhole w H W) (hpan : PandoraContract w) (hkeeps : PandoraKeeps w.pandora)
    (hzoom : w.run.zoom = zoomLinear)
    (hu : user.get "pipeline" = some (.obj p0)) (hu' : user'.get "pipeline" = some (.obj p0'))
    (he : p0.get "estimation" = none) (he' : p0'.get "estimation" = none)
    (hmc : p0.get "matching_cost" = some (.obj mc)) (hmc' : p0'.get "matching_cost" = some (.obj mc'))
    (same : SameMatcher w user user' p0 p0' mc mc' n me (Pandora.windowCost hw ker))
    (hi0 : user'.get "input" = some (.obj inp)) (hleft : inp.get "left" = some (.obj l)) (hright : inp.get "right" = some (.obj r))
    (hroi : user.get "ROI" = some rv) (hroi' : user'.get "ROI" = none)
    (ask : Asks w user H W dRow dCol rf rl cf cl sr sc invalid)
    (ask' : Asks w user' H W dRow dCol 0 ((H : Int) - 1) 0 ((W : Int) - 1) sr' sc' invalid) (hl : rl < H ∧ cl < W)
    (h : Main.main w user = (out, none)) (h' : Main.main w user' = (out', none)) :
    ∃ files rest files' rest' R full fullR crop cropR, ∃ cost : Int → Int → K → K → F K,
      out = .rasters files :: rest ∧ out' = .rasters files' :: rest' ∧
      ImagesRead w l r none full fullR ∧ ImagesRead w l r (some R) crop cropR ∧ ReadZone crop (some R) H W rf rl cf cl ∧
      (∃ R0 cu nc, R0.margins = w.globalMargins cu nc ∧ getRoiProcessing R0 dCol dRow = .ok (R, R)) ∧
      (Covers dRow 0 0 H W ∧ Covers dCol 0 0 H W) ∧ (full.row0 = 0 ∧ full.col0 = 0 ∧ full.h = H ∧ full.w = W) ∧
      (fullR.noData ≠ .nan → ∀ i j i' j', i < files.row.h → j < files.row.w → i' < files'.row.h → j' < files'.row.w →
        rf + (i : Int) * sr = (i' : Int) * sr' → cf + (j : Int) * sc = (j' : Int) * sc' →
        (∀ dr dc : K, (∃ k : Int, dr * (n : K) = k) → cost ((i' : Int) * sr') ((j' : Int) * sc') dr dc ≠ .nan →
          FitsZone hw full ((i' : Int) * sr') ((j' : Int) * sc') dr dc) ∧
        BestPair me (AskedPair dRow dCol n ((i' : Int) * sr') ((j' : Int) * sc')) (cost ((i' : Int) * sr') ((j' : Int) * sc')) invalid
          (files'.row.values i' j') (files'.col.values i' j') (files'.score.values i' j') ∧
        BestPair me (fun dr dc => AskedPair dRow dCol n ((i' : Int) * sr') ((j' : Int) * sc') dr dc ∧
            FitsZone hw crop ((i' : Int) * sr') ((j' : Int) * sc') dr dc) (cost ((i' : Int) * sr') ((j' : Int) * sc')) invalid
          (files.row.values i j) (files.col.values i j) (files.score.values i j)) := by
  have hpd : ∀ {u p : Fields} {a b c d : Int} {x y : Nat}, u.get "pipeline" = some (.obj p) → Asks w u H W dRow dCol a b c d x y invalid →
      "disparity" ∈ p.keys := by
    intro u p a b c d x y hp hk
    obtain ⟨pl, mc, disp, a1, a2, a3, -⟩ := hk.steps
    rw [hp, Option.some.injEq, J.obj.injEq] at a1
    subst a1
    exact (Fields.get_isSome _ _).1 (by rw [a3]; rfl)
  obtain ⟨s⟩ := main_stages w user p0 out wf hpan hu (hpd hu ask) h
  obtain ⟨s'⟩ := main_stages w user' p0' out' wf' hpan hu' (hpd hu' ask') h'
  obtain ⟨hn, dRow1, dCol1, gmin, gmax, -, i1, i2, i3, i4, i5, -, -, -, i6⟩ :=
    s.winner hdisk hkeeps wf hu ask.zone hl same.noRefinement.1 hmc same.matcher.1
  obtain ⟨-, dRow2, dCol2, gmin', gmax', -, i1', i2', i3', i4', i5', -, icov, -, i6'⟩ :=
    s'.winner hdisk hkeeps wf' hu' ask'.zone (by omega) same.noRefinement.2 hmc' same.matcher.2
  obtain ⟨j1, j2⟩ := i1 he
  obtain ⟨j1', j2'⟩ := i1' he'
  obtain ⟨⟨rfl, rfl⟩, ⟨rfl, rfl⟩, rfl⟩ := s.asked wf hu he ask j1 j2
  obtain ⟨⟨rfl, rfl⟩, ⟨rfl, rfl⟩, hinv⟩ := s'.asked wf' hu' he' ask' j1' j2'
  -- the two regions
  have r1 := s.roiFor
  have r1' := s'.roiFor
  have hnone : s'.roi = none := by
    cases hx : s'.roi with
    | none => rfl
    | some R =>
      rw [hx] at r1'
      obtain ⟨v, hv, -⟩ := r1'
      rw [hroi'] at hv; simp at hv
  obtain ⟨R, hR⟩ : ∃ R, s.roi = some R := by
    cases hx : s.roi with
    | none =>
      rw [hx] at r1
      unfold RoiFor at r1
      rw [hroi] at r1; simp at r1
    | some R => exact ⟨R, rfl⟩
  -- the same sections
  have hinp : s.inp = s'.inp := by
    have hin := s.input
    have hin' := s'.input
    have hg : getConfigInput user = getConfigInput user' := by unfold getConfigInput; rw [same.input]
    have hge : givesEstimation p0 = givesEstimation p0' := by unfold givesEstimation; rw [he, he']
    rw [hg, hge, hin', Except.ok.injEq] at hin
    have hi := s.inputIs
    rw [← hin, s'.inputIs, Option.some.injEq, J.obj.injEq] at hi
    exact hi.symm
  obtain ⟨-, -, lj, rj, l1, l2, l3, l4⟩ := created_input s.datasets
  obtain ⟨-, -, lj', rj', l1', l2', l3', l4'⟩ := created_input s'.datasets
  rw [← hinp, l1, Option.some.injEq] at l1'
  rw [← hinp, l2, Option.some.injEq] at l2'
  subst l1' l2'
  rw [hR] at l3 l4 i2
  rw [hnone] at l3' l4' i2'
  obtain ⟨f1, f2, f3, f4, -⟩ := i2'
  obtain ⟨k1, k2, k3, k4, k5⟩ := i2
  obtain ⟨R0, q1, q2⟩ := s.region hR j1 j2
  have hz' := s.zone hdisk ask.zone hl
  have kR : CropOk s.right.img R H W := by
    refine hdisk.crop _ _ _ l4 k1.rows k1.cols k1.margins
  have hcl := hcrop _ _ _ _ l3' l3 k1
  have hcr := hcrop _ _ _ _ l4' l4 kR
  have er : s.right.img.row0 = s.left.img.row0 := by rw [kR.row0, k1.row0]
  have ec : s.right.img.col0 = s.left.img.col0 := by rw [kR.col0, k1.col0]
  rw [er, ec] at hcr
  have p1 : 0 ≤ s.left.img.row0 := by rw [k1.row0]; exact le_max_left _ _
  have p2 : 0 ≤ s.left.img.col0 := by rw [k1.col0]; exact le_max_left _ _
  rw [f1, f2, f3, f4] at icov
  refine ⟨s.files, _, s'.files, _, R, s'.left.img, s'.right.img, s.left.img, s.right.img,
    fun r c dr dc => Pandora.windowCost hw ker s'.left.img (slabImg zoomLinear s'.right.img n dr) gmin' gmax' r.toNat c.toNat dc,
    s.outIs, s'.outIs, by rw [← hnone]; exact s'.images wf' hi0 hleft hright,
    by rw [← hR]; exact s.images wf (same.input.trans hi0) hleft hright, ⟨k1, k2, k3, k4, k5⟩, ⟨R0, _, _, q1, q2⟩, icov,
    ⟨f1, f2, f3, f4⟩, fun hnd i j i' j' hi hj hi' hj' e1 e2 => ?_⟩
  have key := i6 i hi j hj
  have key' := (i6' i' hi' j' hj').2
  rw [hzoom] at key key'
  rw [← hinv, f1, f2] at key'
  simp only [zero_add, sub_zero] at key'
  obtain ⟨⟨a, b, ha, hb, ea, eb⟩, key⟩ := key
  rw [e1] at key ea
  rw [e2] at key eb
  have ta : ((i' : Int) * s'.plan.cfg.stepRow - s.left.img.row0).toNat = a := by omega
  have tb : ((j' : Int) * s'.plan.cfg.stepCol - s.left.img.col0).toNat = b := by omega
  have ta' : ((i' : Int) * s'.plan.cfg.stepRow).toNat = a + s.left.img.row0.toNat := by omega
  have tb' : ((j' : Int) * s'.plan.cfg.stepCol).toNat = b + s.left.img.col0.toNat := by omega
  rw [ta, tb] at key
  have hrows := hcl.rows
  have hcols := hcl.cols
  have hg : gmin.get a b = gmin'.get (a + s.left.img.row0.toNat) (b + s.left.img.col0.toNat) ∧
      gmax.get a b = gmax'.get (a + s.left.img.row0.toNat) (b + s.left.img.col0.toNat) := by
    rw [i4 a ha b hb, i5 a ha b hb, i4' _ (by omega) _ (by omega), i5' _ (by omega) _ (by omega), f1, f2]
    push_cast
    rw [Int.toNat_of_nonneg p1, Int.toNat_of_nonneg p2, zero_add, zero_add, add_comm (a : Int), add_comm (b : Int)]
    exact ⟨rfl, rfl⟩
  refine ⟨fun dr dc hk hne => ?_, key', ?_⟩
  · simp only [ta', tb'] at hne
    have := cost_fits hn hk hnd i3'.1 i3'.2 ⟨f1, f2⟩ hne
    rw [show ((a + s.left.img.row0.toNat : Nat) : Int) = (i' : Int) * s'.plan.cfg.stepRow by omega,
      show ((b + s.left.img.col0.toNat : Nat) : Int) = (j' : Int) * s'.plan.cfg.stepCol by omega] at this
    exact this
  · refine BestPair.restrict key (fun dr dc hask hf => ?_) (fun dr dc hask hf => ?_)
    · obtain ⟨⟨x, y, hx, -⟩, -⟩ := hask
      rw [← fitsIn_zone i3.1 i3.2 ea eb] at hf
      simp only [ta', tb']
      exact (crop_cost hcl hcr hn ⟨x, hx⟩ hnd hg).1 hf
    · obtain ⟨⟨x, y, hx, -⟩, -⟩ := hask
      rw [← fitsIn_zone i3.1 i3.2 ea eb] at hf
      exact (crop_cost hcl hcr hn ⟨x, hx⟩ hnd hg).2 hf

/-- C90 (partial): at the pixels whose window is inside the region of interest, the three rasters of the execution on the region hold the
values of the execution on the full images, whatever the steps of both. Missing: the pixels at less than half a window from the border of
the region (`C90_false`). -/
theorem C90_same_inside_partial (w : World K) (user user' p0 p0' mc mc' inp l r : Fields) (rv : J) (out out' : List (Written K)) (H W : Nat)
    (dRow dCol : Disp) (rf rl cf cl : Int) (sr sc sr' sc' : Nat) (invalid : F K) (n hw : Nat) (me : Measure)
    (ker : List (F K × F K) → F K) (wf : user.wf) (wf' : user'.wf)
    (hdisk : DiskContract w H W) (hcrop : CropsWhole w H W) (hpan : PandoraContract w) (hkeeps : PandoraKeeps w.pandora)
    (hzoom : w.run.zoom = zoomLinear)
    (hu : user.get "pipeline" = some (.obj p0)) (hu' : user'.get "pipeline" = some (.obj p0'))
    (he : p0.get "estimation" = none) (he' : p0'.get "estimation" = none)
    (hmc : p0.get "matching_cost" = some (.obj mc)) (hmc' : p0'.get "matching_cost" = some (.obj mc'))
    (same : SameMatcher w user user' p0 p0' mc mc' n me (Pandora.windowCost hw ker))
    (hi0 : user'.get "input" = some (.obj inp)) (hleft : inp.get "left" = some (.obj l)) (hright : inp.get "right" = some (.obj r))
    (hroi : user.get "ROI" = some rv) (hroi' : user'.get "ROI" = none)
    (ask : Asks w user H W dRow dCol rf rl cf cl sr sc invalid)
    (ask' : Asks w user' H W dRow dCol 0 ((H : Int) - 1) 0 ((W : Int) - 1) sr' sc' invalid) (hl : rl < H ∧ cl < W)
    (h : Main.main w user = (out, none)) (h' : Main.main w user' = (out', none)) :
    ∃ files rest files' rest' full fullR, out = .rasters files :: rest ∧ out' = .rasters files' :: rest' ∧
      ImagesRead w l r none full fullR ∧
      (fullR.noData ≠ .nan → ∀ i j i' j', i < files.row.h → j < files.row.w → i' < files'.row.h → j' < files'.row.w →
        rf + (i : Int) * sr = (i' : Int) * sr' → cf + (j : Int) * sc = (j' : Int) * sc' →
        rf + hw ≤ (i' : Int) * sr' → (i' : Int) * sr' + hw ≤ rl → cf + hw ≤ (j' : Int) * sc' → (j' : Int) * sc' + hw ≤ cl →
        files.row.values i j = files'.row.values i' j' ∧ files.col.values i j = files'.col.values i' j' ∧
        files.score.values i j = files'.score.values i' j') := by
  obtain ⟨files, rest, files', rest', R, full, fullR, crop, cropR, cost, o1, o2, r1, -, ⟨k1, k2, k3, k4, k5⟩, ⟨R0, cu, nc, -, hR0⟩, ⟨v1, v2⟩,
    ⟨f1, f2, f3, f4⟩, key⟩ := C90_roi_restricts w user user' p0 p0' mc mc' inp l r rv out out' H W dRow dCol rf rl cf cl sr sc sr' sc' invalid n hw me ker
      wf wf' hdisk hcrop hpan hkeeps hzoom hu hu' he he' hmc hmc' same hi0 hleft hright hroi hroi' ask ask' hl h h'
  refine ⟨files, rest, files', rest', full, fullR, o1, o2, r1, fun hnd i j i' j' hi hj hi' hj' e1 e2 w1 w2 w3 w4 => ?_⟩
  obtain ⟨g1, g2, g3⟩ := key hnd i j i' j' hi hj hi' hj' e1 e2
  obtain ⟨⟨t1, t2, t3, t4, -⟩, -, c1, c2⟩ := C18_margins_cover_disparities R0 dCol dRow R R hR0
  refine BestPair.unique g3 (BestPair.restrict g2 (fun _ _ _ _ => rfl) fun dr dc hask hf => ?_)
  by_contra hne
  obtain ⟨⟨x, y, hx, hy⟩, a1, a2⟩ := hask
  obtain ⟨⟨b1, b2, b3, b4⟩, b5, b6, b7, b8⟩ := g1 dr dc ⟨x, hx⟩ hne
  obtain ⟨d1, d2⟩ := asked_range v1 (r := (i' : Int) * sr') (c := (j' : Int) * sc') (by omega) (by omega) a1
  obtain ⟨d3, d4⟩ := asked_range v2 (r := (i' : Int) * sr') (c := (j' : Int) * sc') (by omega) (by omega) a2
  have m1 := (c2 ((i' : Int) * sr' - hw) _ (by omega) (by omega) d1).1
  have m2 := (c2 ((i' : Int) * sr' + hw) _ (by omega) (by omega) d2).2
  have m3 := (c1 ((j' : Int) * sc' - hw) _ (by omega) (by omega) d3).1
  have m4 := (c1 ((j' : Int) * sc' + hw) _ (by omega) (by omega) d4).2
  have z1 := k1.row0
  have z2 := k1.col0
  have z3 := k1.row1
  have z4 := k1.col1
  have z5 := k1.margins
  refine hf ⟨⟨?_, ?_, ?_, ?_⟩, ?_, ?_, ?_, ?_⟩ <;> omega

/-- C90: at every pixel shared by the two executions, the execution on the region gives the invalid value three times or a score which
is not better than that of the execution on the full images. -/
theorem C90_never_better (w : World K) (user user' p0 p0' mc mc' inp l r : Fields) (rv : J) (out out' : List (Written K)) (H W : Nat)
    (dRow dCol : Disp) (rf rl cf cl : Int) (sr sc sr' sc' : Nat) (invalid : F K) (n hw : Nat) (me : Measure)
    (ker : List (F K × F K) → F K) (wf : user.wf) (wf' : user'.wf)
    (hdisk : DiskContract w H W) (hcrop : CropsWhole w H W) (hpan : PandoraContract w) (hkeeps : PandoraKeeps w.pandora)
    (hzoom : w.run.zoom = zoomLinear)
    (hu : user.get "pipeline" = some (.obj p0)) (hu' : user'.get "pipeline" = some (.obj p0'))
    (he : p0.get "estimation" = none) (he' : p0'.get "estimation" = none)
    (hmc : p0.get "matching_cost" = some (.obj mc)) (hmc' : p0'.get "matching_cost" = some (.obj mc'))
    (same : SameMatcher w user user' p0 p0' mc mc' n me (Pandora.windowCost hw ker))
    (hi0 : user'.get "input" = some (.obj inp)) (hleft : inp.get "left" = some (.obj l)) (hright : inp.get "right" = some (.obj r))
    (hroi : user.get "ROI" = some rv) (hroi' : user'.get "ROI" = none)
    (ask : Asks w user H W dRow dCol rf rl cf cl sr sc invalid)
    (ask' : Asks w user' H W dRow dCol 0 ((H : Int) - 1) 0 ((W : Int) - 1) sr' sc' invalid) (hl : rl < H ∧ cl < W)
    (h : Main.main w user = (out, none)) (h' : Main.main w user' = (out', none)) :
    ∃ files rest files' rest' full fullR, out = .rasters files :: rest ∧ out' = .rasters files' :: rest' ∧
      ImagesRead w l r none full fullR ∧
      (fullR.noData ≠ .nan → ∀ i j i' j', i < files.row.h → j < files.row.w → i' < files'.row.h → j' < files'.row.w →
        rf + (i : Int) * sr = (i' : Int) * sr' → cf + (j : Int) * sc = (j' : Int) * sc' →
        (files.row.values i j = invalid ∧ files.col.values i j = invalid ∧ files.score.values i j = invalid) ∨
        AtLeastAsGood me (files'.score.values i' j') (files.score.values i j)) := by
  obtain ⟨files, rest, files', rest', R, full, fullR, crop, cropR, cost, o1, o2, r1, -, -, -, -, -, key⟩ :=
    C90_roi_restricts w user user' p0 p0' mc mc' inp l r rv out out' H W dRow dCol rf rl cf cl sr sc sr' sc' invalid n hw me ker
      wf wf' hdisk hcrop hpan hkeeps hzoom hu hu' he he' hmc hmc' same hi0 hleft hright hroi hroi' ask ask' hl h h'
  refine ⟨files, rest, files', rest', full, fullR, o1, o2, r1, fun hnd i j i' j' hi hj hi' hj' e1 e2 => ?_⟩
  obtain ⟨-, g2, g3⟩ := key hnd i j i' j' hi hj hi' hj' e1 e2
  exact BestPair.fewer g3 g2

/-! ### Counterexample and non-vacuity -/

/-- The full statement of C90: the two executions give the same values at every pixel they share. -/
def C90Statement : Prop :=
  ∀ (w : World ℚ) (user user' p0 p0' mc mc' inp l r : Fields) (rv : J) (out out' : List (Written ℚ)) (H W : Nat)
    (dRow dCol : Disp) (rf rl cf cl : Int) (sr sc sr' sc' : Nat) (invalid : F ℚ) (n hw : Nat) (me : Measure)
    (ker : List (F ℚ × F ℚ) → F ℚ), user.wf → user'.wf → DiskContract w H W → CropsWhole w H W → PandoraContract w →
    PandoraKeeps w.pandora → w.run.zoom = zoomLinear →
    user.get "pipeline" = some (.obj p0) → user'.get "pipeline" = some (.obj p0') →
    p0.get "estimation" = none → p0'.get "estimation" = none →
    p0.get "matching_cost" = some (.obj mc) → p0'.get "matching_cost" = some (.obj mc') →
    SameMatcher w user user' p0 p0' mc mc' n me (Pandora.windowCost hw ker) →
    user'.get "input" = some (.obj inp) → inp.get "left" = some (.obj l) → inp.get "right" = some (.obj r) →
    user.get "ROI" = some rv → user'.get "ROI" = none →
    Asks w user H W dRow dCol rf rl cf cl sr sc invalid →
    Asks w user' H W dRow dCol 0 ((H : Int) - 1) 0 ((W : Int) - 1) sr' sc' invalid → rl < H ∧ cl < W →
    Main.main w user = (out, none) → Main.main w user' = (out', none) →
    ∃ files rest files' rest' full fullR, out = .rasters files :: rest ∧ out' = .rasters files' :: rest' ∧
      ImagesRead w l r none full fullR ∧
      (fullR.noData ≠ .nan → ∀ i j i' j', i < files.row.h → j < files.row.w → i' < files'.row.h → j' < files'.row.w →
        rf + (i : Int) * sr = (i' : Int) * sr' → cf + (j : Int) * sc = (j' : Int) * sc' →
        files.row.values i j = files'.row.values i' j' ∧ files.col.values i j = files'.col.values i' j' ∧
        files.score.values i j = files'.score.values i' j')

/-- The world of the examples with windows of three pixels compared by `sad`. -/
noncomputable def exWorldW : World ℚ :=
  { exWorldOf 1 with cost := fun _ => Pandora.windowCost 1 sad, globalMargins := fun _ _ => ⟨1, 1, 1, 1⟩ }

theorem exWorldW_contract : RunContract exWorldW 5 3 := by
  obtain ⟨⟨d1, d2, d3, d4, d5⟩, ⟨p1, -⟩, k, r, a, o, i, s⟩ := exWorldOf_contract 1 5 (by decide)
  exact ⟨⟨d1, d2, d3, d4, d5⟩, ⟨p1, fun _ => windowCost_contract 1 sad sad_finite⟩, k, r, a, o, i, s⟩

theorem cropImg_of (i : Img ℚ) (R : Roi) (H W : Nat) (hm : i.msk = none) (h1 : i.h = H) (h2 : i.w = W) (r0 : i.row0 = 0) (c0 : i.col0 = 0)
    (h : CropOk (cropImg i R) R H W) : CropOf i (cropImg i R) (cropImg i R).row0.toNat (cropImg i R).col0.toNat := by
  obtain ⟨k1, k2, k3, k4, k5, k6, k7⟩ := h
  simp only [cropImg] at k4 k5 k6 k7
  refine ⟨?_, ?_, ?_, ?_, fun _ _ _ _ => rfl, rfl, fun _ _ _ _ => ?_, fun _ _ _ _ => ?_⟩
  · simp only [cropImg]; omega
  · simp only [cropImg]; omega
  · simp only [cropImg]; omega
  · simp only [cropImg]; omega
  · simp [Pandora.noDataAt, cropImg, hm]
  · simp [Pandora.invalidAt, cropImg, hm]

theorem exWorldOf_crops (half rows : Nat) : CropsWhole (exWorldOf half rows) rows 3 := by
  intro v R full crop h1 h2 h3
  simp only [exWorldOf, Except.ok.injEq] at h1 h2
  subst h1 h2
  revert h3
  split_ifs
  · exact cropImg_of _ R rows 3 rfl rfl rfl rfl rfl
  · exact cropImg_of _ R rows 3 rfl rfl rfl rfl rfl

/-- The displacement of one row only. -/
def exInputOne : Fields := dict [("left", .obj (dict [("img", .str "left.tif")])),
  ("right", .obj (dict [("img", .str "right.tif"), ("nodata", .str "NaN")])),
  ("row_disparity", .obj (dict [("init", .int 1), ("range", .int 0)])),
  ("col_disparity", .obj (dict [("init", .int 0), ("range", .int 0)]))]

/-- The full images. -/
def exUserFull : Fields := dict [("input", .obj exInputOne), ("pipeline", .obj (exPipeline none 1 1 none))]

/-- The rows 1 and 2. -/
def exUserRegion : Fields := dict [("input", .obj exInputOne),
  ("ROI", .obj (dict [("row", .obj (dict [("first", .int 1), ("last", .int 2)])), ("col", .obj (dict [("first", .int 0), ("last", .int 2)]))])),
  ("pipeline", .obj (exPipeline none 1 1 none))]

theorem exUserFull_wf : exUserFull.wf := by
  simp [exUserFull, exInputOne, exPipeline, dict, Fields.append, Fields.wf, J.wf, Fields.keys]

theorem exUserRegion_wf : exUserRegion.wf := by
  simp [exUserRegion, exInputOne, exPipeline, dict, Fields.append, Fields.wf, J.wf, Fields.keys]

theorem exUserFull_ok : Main.main exWorldW exUserFull = ((Main.main exWorldW exUserFull).1, none) := by
  have : (Main.main exWorldW exUserFull).2 = none := by
    obtain ⟨m, cfg, h⟩ := accepted_ok (w := exWorldOf 1) (user := exUserFull) (by decide +kernel)
    refine C81_accepted_runs_partial exWorldW _ _ _ cfg m 5 3 0 4 0 2 1 1 exUserFull_wf exWorldW_contract rfl (by decide) rfl
      (.inl ⟨_, _, rfl, .inl rfl, .inl rfl⟩) (.inr ⟨rfl, rfl, rfl, rfl, rfl⟩) (by decide) ?_ ?_ (.inl ⟨rfl, rfl⟩) h
    · intro he
      exact absurd rfl he
    · intro v hv
      have : (exPipeline none 1 1 none).get "refinement" = none := by decide
      exact absurd (this.symm.trans hv) (by simp)
  rw [← this]

theorem exRegion_zone : ZoneIs exUserRegion 5 3 1 2 0 2 :=
  .inl ⟨_, rfl, _, _, _, _, _, _, _, rfl, rfl, rfl, rfl, rfl, rfl, rfl, .inl rfl, .inl rfl, .inl rfl, .inl rfl⟩

theorem exUserRegion_ok : Main.main exWorldW exUserRegion = ((Main.main exWorldW exUserRegion).1, none) := by
  have : (Main.main exWorldW exUserRegion).2 = none := by
    obtain ⟨m, cfg, h⟩ := accepted_ok (w := exWorldOf 1) (user := exUserRegion) (by decide +kernel)
    refine C81_accepted_runs_partial exWorldW _ _ _ cfg m 5 3 1 2 0 2 1 1 exUserRegion_wf exWorldW_contract rfl (by decide) rfl
      (.inl ⟨_, _, rfl, .inl rfl, .inl rfl⟩) exRegion_zone (by decide) ?_ ?_ (.inl ⟨rfl, rfl⟩) h
    · intro he
      exact absurd rfl he
    · intro v hv
      have : (exPipeline none 1 1 none).get "refinement" = none := by decide
      exact absurd (this.symm.trans hv) (by simp)
  rw [← this]

theorem exUserRegion_asks : Asks exWorldW exUserRegion 5 3 ⟨.const 1, 0⟩ ⟨.const 0, 0⟩ 1 2 0 2 1 1 .nan :=
  ⟨⟨_, rfl, ⟨_, _, _, rfl, rfl, rfl, .inl rfl, .inl ⟨_, .inl rfl, rfl⟩⟩, ⟨_, _, _, rfl, rfl, rfl, .inl rfl, .inl ⟨_, .inl rfl, rfl⟩⟩⟩,
    exRegion_zone,
    ⟨_, _, _, rfl, rfl, rfl, .inl ⟨_, _, rfl, .inl rfl, .inl rfl⟩, .inl ⟨_, rfl, .inr (.inr (.inl ⟨rfl, rfl⟩))⟩⟩⟩

theorem exUserFull_asks : Asks exWorldW exUserFull 5 3 ⟨.const 1, 0⟩ ⟨.const 0, 0⟩ 0 (((5 : Nat) : Int) - 1) 0 (((3 : Nat) : Int) - 1) 1 1 .nan :=
  ⟨⟨_, rfl, ⟨_, _, _, rfl, rfl, rfl, .inl rfl, .inl ⟨_, .inl rfl, rfl⟩⟩, ⟨_, _, _, rfl, rfl, rfl, .inl rfl, .inl ⟨_, .inl rfl, rfl⟩⟩⟩,
    .inr ⟨rfl, rfl, rfl, rfl, rfl⟩,
    ⟨_, _, _, rfl, rfl, rfl, .inl ⟨_, _, rfl, .inl rfl, .inl rfl⟩, .inl ⟨_, rfl, .inr (.inr (.inl ⟨rfl, rfl⟩))⟩⟩⟩

theorem exW_matcher : MatcherIs exWorldW (dict [("matching_cost_method", .str "zncc"), ("window_size", .int 1),
      ("step", .arr (.cons (.int 1) (.cons (.int 1) .nil)))]) 1 .min (Pandora.windowCost 1 sad) :=
  ⟨_, _, _, _, _, _, rfl, rfl, rfl, .inl rfl, rfl, rfl⟩

/-- The hypotheses of C90 hold for these executions. -/
example := C90_same_inside_partial exWorldW exUserRegion exUserFull _ _ _ _ _ _ _ _ _ _ 5 3 _ _ 1 2 0 2 1 1 1 1 .nan 1 1 .min sad exUserRegion_wf
  exUserFull_wf exWorldW_contract.disk (exWorldOf_crops 1 5) exWorldW_contract.pandora exWorldW_contract.keeps rfl rfl rfl rfl rfl rfl rfl
  ⟨rfl, ⟨rfl, rfl⟩, exW_matcher, exW_matcher⟩ rfl rfl rfl rfl rfl exUserRegion_asks exUserFull_asks (by decide) exUserRegion_ok exUserFull_ok

theorem exUserAll_wf : (exUserWhole 1 1 none (some (.int 0))).wf := by
  simp [exUserWhole, exInput, exPipeline, dict, Fields.append, Fields.wf, J.wf, Fields.keys]

theorem exUserAll_ok : Main.main exWorldS (exUserWhole 1 1 none (some (.int 0))) = ((Main.main exWorldS (exUserWhole 1 1 none (some (.int 0)))).1, none) := by
  have : (Main.main exWorldS (exUserWhole 1 1 none (some (.int 0)))).2 = none := by
    obtain ⟨m, cfg, h⟩ := accepted_ok (w := exWorldI) (user := exUserWhole 1 1 none (some (.int 0))) (by decide +kernel)
    refine C81_accepted_runs_partial exWorldS _ _ _ cfg m 5 3 0 4 0 2 1 1 exUserAll_wf exWorldS_contract rfl (by decide) rfl
      (.inl ⟨_, _, rfl, .inl rfl, .inl rfl⟩) (.inr ⟨rfl, rfl, rfl, rfl, rfl⟩) (by decide) ?_ ?_ (.inl ⟨rfl, rfl⟩) h
    · intro he
      exact absurd rfl he
    · intro v hv
      have : (exPipeline none 1 1 none).get "refinement" = none := by decide
      exact absurd (this.symm.trans hv) (by simp)
  rw [← this]

theorem exUserAll_asks : Asks exWorldS (exUserWhole 1 1 none (some (.int 0))) 5 3 ⟨.const 0, 1⟩ ⟨.const 0, 1⟩ 0 (((5 : Nat) : Int) - 1) 0
    (((3 : Nat) : Int) - 1) 1 1 .nan :=
  ⟨⟨_, rfl, ⟨_, _, _, rfl, rfl, rfl, .inl rfl, .inl ⟨_, .inl rfl, rfl⟩⟩, ⟨_, _, _, rfl, rfl, rfl, .inl rfl, .inl ⟨_, .inl rfl, rfl⟩⟩⟩,
    .inr ⟨rfl, rfl, rfl, rfl, rfl⟩,
    ⟨_, _, _, rfl, rfl, rfl, .inl ⟨_, _, rfl, .inl rfl, .inl rfl⟩, .inl ⟨_, rfl, .inr (.inr (.inl ⟨rfl, rfl⟩))⟩⟩⟩

/-- They hold with windows of one pixel: every pixel of the region is concerned by `C90_same_inside_partial`. -/
example := C90_same_inside_partial exWorldS exUserS (exUserWhole 1 1 none (some (.int 0))) _ _ _ _ _ _ _ _ _ _ 5 3 _ _ 1 2 0 2 1 1 1 1 .nan 1 0 .min sad
  exUserS_wf exUserAll_wf exWorldS_contract.disk (exWorldOf_crops 0 5) exWorldS_contract.pandora exWorldS_contract.keeps rfl rfl rfl rfl rfl rfl rfl
  ⟨rfl, ⟨rfl, rfl⟩, exUserS_matcher, exUserS_matcher⟩ rfl rfl rfl rfl rfl exUserS_asks exUserAll_asks (by decide) exUserS_ok exUserAll_ok

theorem exW_left {R : Option Roi} {l : Fields} (h : l.get "img" = some (.str "left.tif")) :
    exWorldW.files.read (.obj l) R = .ok (match R with | none => exLeftImg | some R => cropImg exLeftImg R) := by
  have l1 : isLeftSection (.obj l) = true := by
    simp only [isLeftSection, h]
    decide
  simp only [exWorldW, exWorldOf, l1, if_true]
  cases R <;> rfl

theorem exW_right {R : Option Roi} {l : Fields} (h : l.get "img" = some (.str "right.tif")) :
    exWorldW.files.read (.obj l) R = .ok (match R with | none => exRightImg | some R => cropImg exRightImg R) := by
  have l1 : isLeftSection (.obj l) = false := by
    simp only [isLeftSection, h]
    decide
  simp only [exWorldW, exWorldOf, l1, Bool.false_eq_true, if_false]
  cases R <;> rfl

/-- The full statement is false: the margins of the region cover the largest of the disparities and of the half window, not their sum. At
the border of the region the window displaced by the right disparity is not in the crop: the execution on the region gives an invalid
pixel where the execution on the full images gives the displacement, with a score of 0. -/
theorem C90_false : ¬ C90Statement := by
  intro hst
  obtain ⟨files, rest, files', rest', full, fullR, o1, o2, r1, key⟩ := hst exWorldW exUserRegion exUserFull _ _ _ _ _ _ _ _ _ _ 5 3 _ _ 1 2 0 2
    1 1 1 1 .nan 1 1 .min sad exUserRegion_wf exUserFull_wf exWorldW_contract.disk (exWorldOf_crops 1 5) exWorldW_contract.pandora
    exWorldW_contract.keeps rfl rfl rfl rfl rfl rfl rfl ⟨rfl, ⟨rfl, rfl⟩, exW_matcher, exW_matcher⟩ rfl rfl rfl rfl rfl exUserRegion_asks
    exUserFull_asks (by decide) exUserRegion_ok exUserFull_ok
  obtain ⟨g, grest, g', grest', R, fl, fr, crop, cropR, cost, p1, p2, p3, -, ⟨k1, k2, k3, k4, k5⟩, ⟨R0, cu, nc, q1, q2⟩, -, -, gkey⟩ :=
    C90_roi_restricts exWorldW exUserRegion exUserFull _ _ _ _ _ _ _ _ _ _ 5 3 _ _ 1 2 0 2
    1 1 1 1 .nan 1 1 .min sad exUserRegion_wf exUserFull_wf exWorldW_contract.disk (exWorldOf_crops 1 5) exWorldW_contract.pandora
    exWorldW_contract.keeps rfl rfl rfl rfl rfl rfl rfl ⟨rfl, ⟨rfl, rfl⟩, exW_matcher, exW_matcher⟩ rfl rfl rfl rfl rfl exUserRegion_asks
    exUserFull_asks (by decide) exUserRegion_ok exUserFull_ok
  obtain ⟨t, trest, roi, left, right, s1, s2, s3, s4⟩ := C88_translation_found exWorldW exUserFull _ _ _ _ _ _ 5 3 _ _ 0 4 0 2 1 1 .nan 1 1 _
    exUserFull_wf exWorldW_contract.disk exWorldW_contract.pandora exWorldW_contract.keeps sad_dissimilarity sad_onlyEqual
    rfl rfl rfl rfl exW_matcher exUserFull_asks (by decide) rfl rfl rfl exUserFull_ok
  obtain ⟨z, zrest, z1, z2, -⟩ := C78_files_answer_user exWorldW exUserRegion _ _ 5 3 _ _ 1 2 0 2 1 1 .nan (some ⟨1, 0, 100, 0, -1, 200⟩)
    exUserRegion_wf exWorldW_contract.disk exWorldW_contract.pandora rfl rfl rfl exUserRegion_asks (by decide) ⟨_, _, _, rfl, rfl, rfl, by
      intro g hg; simp [exWorldW, exWorldOf, exWorld, isLeftSection, hg, readValue]⟩ exUserRegion_ok
  obtain ⟨z', zrest', z1', z2', -⟩ := C78_files_answer_user exWorldW exUserFull _ _ 5 3 _ _ 0 4 0 2 1 1 .nan (some ⟨1, 0, 100, 0, -1, 200⟩)
    exUserFull_wf exWorldW_contract.disk exWorldW_contract.pandora rfl rfl rfl exUserFull_asks (by decide) ⟨_, _, _, rfl, rfl, rfl, by
      intro g hg; simp [exWorldW, exWorldOf, exWorld, isLeftSection, hg, readValue]⟩ exUserFull_ok
  rw [o1, List.cons.injEq, Written.rasters.injEq] at p1 z1
  rw [o2, List.cons.injEq, Written.rasters.injEq] at p2 s1 z1'
  obtain ⟨rfl, -⟩ := p1
  obtain ⟨rfl, -⟩ := p2
  obtain ⟨rfl, -⟩ := s1
  obtain ⟨rfl, -⟩ := z1
  obtain ⟨rfl, -⟩ := z1'
  have hz := z2 files.row (by simp)
  have hz' := z2' files'.row (by simp)
  have b1 := (hz.rows 1).2 (by decide)
  have b2 := (hz.cols 1).2 (by decide)
  have b3 := (hz'.rows 2).2 (by decide)
  have b4 := (hz'.cols 1).2 (by decide)
  have hn : fullR.noData ≠ .nan := by
    obtain ⟨lj, rj, -, e2, -, e4⟩ := r1
    rw [exW_right (e2 "img" _ rfl rfl), Except.ok.injEq] at e4
    subst e4
    simp [exRightImg]
  have hn' : fr.noData ≠ .nan := by
    obtain ⟨lj, rj, -, e2, -, e4⟩ := p3
    rw [exW_right (e2 "img" _ rfl rfl), Except.ok.injEq] at e4
    subst e4
    simp [exRightImg]
  obtain ⟨-, -, v⟩ := key hn 1 1 2 1 b1 b2 b3 b4 (by decide) (by decide)
  obtain ⟨-, -, u⟩ := gkey hn' 1 1 2 1 b1 b2 b3 b4 (by decide) (by decide)
  -- the region
  have hnan := (u.invalid (by
    rintro dr dc ⟨⟨-, a1, a2⟩, -, f1, f2, -⟩
    exfalso
    simp only [getRoiProcessing, dispBounds, q1, exWorldW, Except.ok.injEq, Prod.mk.injEq] at q2
    have hR := q2.1
    have hd : R.margins.down = 1 := by rw [← hR]; rfl
    have h1 := k1.row1
    simp only [initAt] at a1
    have : dr = 1 := le_antisymm (by simpa using a1.2) (by simpa using a1.1)
    subst this
    rw [Int.ceil_one] at f2
    omega)).2.2
  -- the full images
  have hzero : files'.score.values 2 1 = .fin 0 := by
    have himg : left = exLeftImg ∧ right = exRightImg := by
      obtain ⟨lj, rj, e1, e2, e3, e4⟩ := s2
      rw [exW_left (e1 "img" _ rfl rfl), Except.ok.injEq] at e3
      rw [exW_right (e2 "img" _ rfl rfl), Except.ok.injEq] at e4
      cases roi with
      | none => exact ⟨e3.symm, e4.symm⟩
      | some R' =>
        obtain ⟨⟨-, -, m3, -⟩, w1, w2, w3, w4⟩ := s3
        have x1 : max 0 (R'.rowFirst - R'.margins.up) = 0 := by omega
        have x2 : max 0 (R'.colFirst - R'.margins.left) = 0 := by omega
        have x3 : min ((5 : Nat) : Int) (R'.rowLast + R'.margins.down + 1) = 5 := by omega
        have x4 : min ((3 : Nat) : Int) (R'.colLast + R'.margins.right + 1) = 3 := by omega
        rw [← e3, ← e4]
        simp only [cropImg, exLeftImg, exRightImg, x1, x2, x3, x4]
        exact ⟨rfl, rfl⟩
    obtain ⟨rfl, rfl⟩ := himg
    refine (s4 2 b3 1 b4 2 1 (by decide) (by decide) 1 0 ?_ ?_ ?_ ?_).1
    · intro a b a' b' _ _ _ _ ha hb
      have hb' : b' = b := by omega
      have ha' : a' = a + 1 := by omega
      subst ha' hb'
      simp only [exLeftImg, exRightImg, F.fin.injEq]
      push_cast
      ring
    · simp [BothInside, exLeftImg, exRightImg]
    · refine ⟨fun x y _ _ _ _ => ⟨⟨_, rfl⟩, ?_, rfl⟩, rfl⟩
      simp only [exLeftImg, exRightImg, ne_eq, F.fin.injEq]
      intro h
      have : (0 : ℚ) ≤ 10 * (x : ℚ) + (y : ℚ) := by positivity
      linarith
    · simp [InIntervals, initAt]
  rw [hnan, hzero] at v
  exact absurd v (by simp)

end Verif.Props
