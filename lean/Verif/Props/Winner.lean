import Verif.Spec.Winner
import Verif.Props.DichotomyMain
import Verif.Props.Translation
import Verif.Props.RoiRun
import Verif.Props.Completes
import Verif.Props.AcceptedExample
import Verif.Props.Accept

/-!
# C87 and C88: the best pair of each pixel, and the translations found
-/

namespace Verif.Props

open Verif Verif.Config Verif.Machine Verif.ImgTools Verif.MatchingCost Verif.Disparity Verif.Estimation Verif.Run Verif.Main Verif.Spec
  Verif.Save Verif.Statistics

set_option linter.unusedSectionVars false

variable {K : Type} [Field K] [LinearOrder K] [IsStrictOrderedRing K] [FloorRing K]

/-! ## The cells of the volumes -/

/-- A mask hides exactly the disparities outside the range of the pixel of the cell. -/
theorem masked_own {M : MinMax} {h w : Nat} {rows cols : Arr1 Int} {row0 col0 : Int} {sr sc : Nat}
    {mr' mc' : Option Int} {a : Arr1 K} {ml mr s : Nat} (hs : 0 < s) (h1 : 1 ≤ sr) (h2 : 1 ≤ sc)
    (hh : 0 < h) (hw : 0 < w) (hM : RangesOk M h w) (hu : Uniform M h w) (ha : IsAxis a M.src.1 M.src.2 ml mr s)
    (er : rows = arangeA (startCoord mr' row0 sr) (row0 + h) sr) (ec : cols = arangeA (startCoord mc' col0 sc) (col0 + w) sc)
    (hmk : ∀ j < a.n, ∀ r c, MaskedBy M r c (a.get j) → r < rows.n ∧ c < cols.n)
    {r c : Nat} (hr : r < rows.n) (hc : c < cols.n) {d : K} (hd : (M.src.1 : K) ≤ d ∧ d ≤ (M.src.2 : K)) :
    MaskedBy M r c d ↔ ¬ InRange M (rows.get r - row0).toNat (cols.get c - col0).toNat d := by
  constructor
  · intro hm hin
    have hb := hm.1
    rw [hM.shape.1, hM.shape.2.1] at hb
    rw [maskedBy_iff hM hb.1 hb.2] at hm
    by_cases hbig : h ≤ rows.n ∧ w ≤ cols.n
    · have e1 : rows.get r = row0 + r := by
        rw [er] at hr hbig ⊢; exact full_coords _ _ _ _ h1 hh hbig.1 hr
      have e2 : cols.get c = col0 + c := by
        rw [ec] at hc hbig ⊢; exact full_coords _ _ _ _ h2 hw hbig.2 hc
      rw [e1, e2, show (row0 + (r : Int) - row0).toNat = r by omega, show (col0 + (c : Int) - col0).toNat = c by omega] at hin
      exact hm.1 hin
    · obtain ⟨q1, q2⟩ := constant_of_larger hs hh hw hM hu ha hmk hbig r hb.1 c hb.2
      rw [q1, q2] at hm
      exact hm.1 hm.2
  · intro hin
    by_contra hm
    exact hin (own_range_of_unmasked hs h1 h2 hh hw hM hu ha er ec hmk hr hc hd hm)

section
variable {z : Zoom K} {pc : Pandora.Cost K} {cfg : Cfg} {roi : Option Roi} {left : Left K} {right : Img K} {margins : Option Margins}
  {cv : CostVolumes K}

/-- A cell in the user's range: the cost of Pandora when the two disparities are in the ranges of the pixel, NaN otherwise. -/
theorem cells_own (hp : PairOk left right) (hur : Uniform left.rowDisp left.img.h left.img.w)
    (huc : Uniform left.colDisp left.img.h left.img.w) (hs : 0 < cfg.subpix) (h1 : 1 ≤ cfg.stepRow) (h2 : 1 ≤ cfg.stepCol)
    (h : computeCostVolumes z pc cfg roi left right margins = .ok cv) {r c i j : Nat} (hpx : Pixel cv r c) (ui : UserCol cv i)
    (uj : UserRow cv j) :
    (InRange left.rowDisp (cv.row.get r - left.img.row0).toNat (cv.col.get c - left.img.col0).toNat (cv.dispRow.get j) ∧
      InRange left.colDisp (cv.row.get r - left.img.row0).toNat (cv.col.get c - left.img.col0).toNat (cv.dispCol.get i) →
      cv.data r c i j = pc left.img (slabImg z right cfg.subpix (cv.dispRow.get j))
        (widened left.colDisp.lo (-((mgD margins).left : Int))) (widened left.colDisp.hi (mgD margins).right)
        (cv.row.get r - left.img.row0).toNat (cv.col.get c - left.img.col0).toNat (cv.dispCol.get i)) ∧
    (¬ (InRange left.rowDisp (cv.row.get r - left.img.row0).toNat (cv.col.get c - left.img.col0).toNat (cv.dispRow.get j) ∧
      InRange left.colDisp (cv.row.get r - left.img.row0).toNat (cv.col.get c - left.img.col0).toNat (cv.dispCol.get i)) →
      cv.data r c i j = .nan) := by
  obtain ⟨e1, e2, e3, e4, -, -, -, hd⟩ := compute_char hp hs h1 h
  obtain ⟨mk1, mk2⟩ := masked_in_volume hp hs h1 h
  obtain ⟨hi, ci⟩ := userCol_src hp hs h1 h ui
  obtain ⟨hj, rj⟩ := userRow_src hp hs h1 h uj
  rw [rowCoords_eq] at e1
  rw [colCoords_eq] at e2
  have m1 := masked_own hs h1 h2 hp.hpos hp.wpos hp.row hur (by rw [e4]; exact axisRow_spec hp margins hs) e1 e2 mk1 hpx.1 hpx.2 rj
  have m2 := masked_own hs h1 h2 hp.hpos hp.wpos hp.col huc (by rw [e3]; exact axisCol_spec hp margins hs) e1 e2 mk2 hpx.1 hpx.2 ci
  rw [hd r hpx.1 c hpx.2 i hi j hj, m1, m2]
  refine ⟨fun q => ?_, fun q => ?_⟩
  · rw [if_neg (by rintro (q' | q'); exact q' q.1; exact q' q.2)]
  · rw [if_pos (by by_contra hno; push Not at hno; exact q hno)]

/-- The best pair of a pixel of the maps. -/
theorem volume_winner (hp : PairOk left right) (hur : Uniform left.rowDisp left.img.h left.img.w)
    (huc : Uniform left.colDisp left.img.h left.img.w) (hpc : CostContract pc) (hs : 0 < cfg.subpix) (h1 : 1 ≤ cfg.stepRow)
    (h2 : 1 ≤ cfg.stepCol) (h : computeCostVolumes z pc cfg roi left right margins = .ok cv) {invalid : F K} {out : DispOut K}
    (ho : computeDispMaps invalid cv = .ok out) {r c : Nat} (hpx : Pixel cv r c) :
    BestPair cfg.measure
      (fun dr dc => (∃ a b : Int, dr * (cfg.subpix : K) = a ∧ dc * (cfg.subpix : K) = b) ∧
        InRange left.rowDisp (cv.row.get r - left.img.row0).toNat (cv.col.get c - left.img.col0).toNat dr ∧
        InRange left.colDisp (cv.row.get r - left.img.row0).toNat (cv.col.get c - left.img.col0).toNat dc)
      (fun dr dc => pc left.img (slabImg z right cfg.subpix dr) (widened left.colDisp.lo (-((mgD margins).left : Int)))
        (widened left.colDisp.hi (mgD margins).right) (cv.row.get r - left.img.row0).toNat (cv.col.get c - left.img.col0).toNat dc)
      invalid (out.row.get r c) (out.col.get r c) (out.score.get r c) := by
  obtain ⟨e1, e2, e3, e4, -, -, e7, hd⟩ := compute_char hp hs h1 h
  obtain ⟨lr, lc⟩ := C13_axes_full_lattice hp hs h1 h
  have hs' : (cfg.subpix : K) ≠ 0 := by positivity
  have i1 : 0 ≤ cv.row.get r - left.img.row0 ∧ cv.row.get r - left.img.row0 < left.img.h := by
    have := hpx.1
    rw [e1, rowCoords_eq] at this ⊢; exact coords_in _ _ _ _ h1 this
  have i2 : 0 ≤ cv.col.get c - left.img.col0 ∧ cv.col.get c - left.img.col0 < left.img.w := by
    have := hpx.2
    rw [e2, colCoords_eq] at this ⊢; exact coords_in _ _ _ _ h2 this
  set a := (cv.row.get r - left.img.row0).toNat with ha
  set b := (cv.col.get c - left.img.col0).toNat with hb
  have ir := hp.row.inside a (by omega) b (by omega)
  have ic := hp.col.inside a (by omega) b (by omega)
  set asked : K → K → Prop := fun dr dc => (∃ a b : Int, dr * (cfg.subpix : K) = a ∧ dc * (cfg.subpix : K) = b) ∧
        InRange left.rowDisp a b dr ∧ InRange left.colDisp a b dc with hasked
  set cost : K → K → F K := fun dr dc => pc left.img (slabImg z right cfg.subpix dr) (widened left.colDisp.lo (-((mgD margins).left : Int)))
        (widened left.colDisp.hi (mgD margins).right) a b dc with hcost
  -- from pairs to cells
  have fwd : ∀ dr dc, asked dr dc → ∃ i j, UserCol cv i ∧ UserRow cv j ∧ cv.dispCol.get i = dc ∧ cv.dispRow.get j = dr ∧
      cv.data r c i j = cost dr dc := by
    rintro dr dc ⟨⟨x, y, hx, hy⟩, hr, hc⟩
    have ex : dr = (x : K) / (cfg.subpix : K) := by rw [← hx]; field_simp
    have ey : dc = (y : K) / (cfg.subpix : K) := by rw [← hy]; field_simp
    have sr1 : (left.rowDisp.src.1 : K) ≤ dr ∧ dr ≤ (left.rowDisp.src.2 : K) :=
      ⟨le_trans (Int.cast_le.2 ir.1) hr.1, le_trans hr.2 (Int.cast_le.2 ir.2)⟩
    have sc1 : (left.colDisp.src.1 : K) ≤ dc ∧ dc ≤ (left.colDisp.src.2 : K) :=
      ⟨le_trans (Int.cast_le.2 ic.1) hc.1, le_trans hc.2 (Int.cast_le.2 ic.2)⟩
    have big : ∀ (s : Int) (n : Nat), ((s - (n : Int) : Int) : K) ≤ (s : K) ∧ (s : K) ≤ ((s + (n : Int) : Int) : K) := fun s n =>
      ⟨Int.cast_le.2 (by omega), Int.cast_le.2 (by omega)⟩
    obtain ⟨j, hj, ej, -⟩ := lr.complete x (by rw [← ex]; exact le_trans (big _ _).1 sr1.1)
      (by rw [← ex]; exact le_trans sr1.2 (big _ _).2)
    obtain ⟨i, hi, ei, -⟩ := lc.complete y (by rw [← ey]; exact le_trans (big _ _).1 sc1.1)
      (by rw [← ey]; exact le_trans sc1.2 (big _ _).2)
    rw [← ex] at ej
    rw [← ey] at ei
    have ui : UserCol cv i := src_userCol hp hs h1 h hi (by rw [ei]; exact sc1)
    have uj : UserRow cv j := src_userRow hp hs h1 h hj (by rw [ej]; exact sr1)
    refine ⟨i, j, ui, uj, ei, ej, ?_⟩
    rw [(cells_own hp hur huc hs h1 h2 h hpx ui uj).1 (by rw [ei, ej]; exact ⟨hr, hc⟩), ei, ej]
  -- from cells to pairs
  have from' : ∀ i j, UserCol cv i → UserRow cv j → cv.data r c i j ≠ .nan →
      asked (cv.dispRow.get j) (cv.dispCol.get i) ∧ cv.data r c i j = cost (cv.dispRow.get j) (cv.dispCol.get i) := by
    intro i j ui uj hne
    obtain ⟨p1, p2⟩ := cells_own hp hur huc hs h1 h2 h hpx ui uj
    have hin := not_imp_comm.1 p2 hne
    obtain ⟨hi, -⟩ := userCol_src hp hs h1 h ui
    obtain ⟨hj, -⟩ := userRow_src hp hs h1 h uj
    have ax1 := axisRow_spec hp margins hs
    have ax2 := axisCol_spec hp margins hs
    rw [← e4] at ax1
    rw [← e3] at ax2
    obtain ⟨x, hx⟩ := axis_multiple hs ax1 hj
    obtain ⟨y, hy⟩ := axis_multiple hs ax2 hi
    exact ⟨⟨⟨x, y, hx, hy⟩, hin⟩, p1 hin⟩
  have cand : ∀ x, Cand cv r c x ↔ x ≠ .nan ∧ ∃ dr dc, asked dr dc ∧ cost dr dc = x := by
    intro x
    constructor
    · rintro ⟨hx, i, j, ui, uj, rfl⟩
      obtain ⟨q1, q2⟩ := from' i j ui uj hx
      exact ⟨hx, _, _, q1, q2.symm⟩
    · rintro ⟨hx, dr, dc, hq, rfl⟩
      obtain ⟨i, j, ui, uj, -, -, e⟩ := fwd dr dc hq
      exact ⟨hx, i, j, ui, uj, e⟩
  have nocand : (∃ dr dc, asked dr dc ∧ cost dr dc ≠ .nan) → ¬ NoCand cv r c := by
    rintro ⟨dr, dc, hq, hne⟩ hno
    obtain ⟨i, j, ui, uj, -, -, e⟩ := fwd dr dc hq
    exact hne (by rw [← e]; exact hno i j ui uj)
  have hnw : NoWorst cv r c := by
    intro i j hi hj
    obtain ⟨hi', -⟩ := userCol_src hp hs h1 h hi
    obtain ⟨hj', -⟩ := userRow_src hp hs h1 h hj
    rw [hd r hpx.1 c hpx.2 i hi' j hj']
    split_ifs
    · split <;> simp
    · split
      · exact (hpc.finite _ _ _ _ _ _ _).1
      · exact (hpc.finite _ _ _ _ _ _ _).2
  refine ⟨fun hno => ?_, fun hex => ?_, fun hex => ?_⟩
  · have : NoCand cv r c := by
      intro i j ui uj
      by_contra hne
      obtain ⟨q1, q2⟩ := from' i j ui uj hne
      exact hne (by rw [q2]; exact hno _ _ q1)
    obtain ⟨x, y, s⟩ := (C03_invalid_iff_no_candidate invalid cv out ho r c hpx).1 this
    exact ⟨y, x, s⟩
  · have hb := C02_score_is_best invalid cv out ho r c hpx (nocand hex)
    rw [e7] at hb
    exact ⟨(cand _).1 hb.1, fun x hx => hb.2 x ((cand x).2 hx)⟩
  · have hb := C02_score_is_best invalid cv out ho r c hpx (nocand hex)
    have hsn : out.score.get r c ≠ .nan := hb.1.1
    obtain ⟨dc, dr, g1, g2, ⟨i, j, ui, uj, x1, x2⟩, ⟨i', j', ui', uj', y1, y2⟩, hmin⟩ :=
      C06_lowest_disparity ho r c hpx (nocand hex) hnw lc.increasing lr.increasing
    refine ⟨dr, dc, g2, g1, ?_, ?_, fun dr' dc' hq he => ?_⟩
    · obtain ⟨q1, q2⟩ := from' i' j' ui' uj' (by rw [y2]; exact hsn)
      rw [y1] at q1 q2
      exact ⟨_, q1, q2.symm.trans y2⟩
    · obtain ⟨q1, q2⟩ := from' i j ui uj (by rw [x2]; exact hsn)
      rw [x1] at q1 q2
      exact ⟨_, q1, q2.symm.trans x2⟩
    · obtain ⟨i, j, ui, uj, f1, f2, f3⟩ := fwd dr' dc' hq
      have := hmin i j ui uj (by rw [f3, he])
      rw [f1, f2] at this
      exact ⟨this.2, this.1⟩

end

/-! ## No refinement: no margins -/

/-- Without refinement, no margins are recorded under the name of the refinement. -/
theorem no_margins_one (w : World K) (cfg : Pipeline J) (s : String) (cb : Cb) (hcb : cb ∈ checkCallbacks s) (hs : s ≠ "refinement")
    (d : Machine.Attrs J Margins) (hd : d.nonCumulative = []) : (checkExec w.steps cb cfg s d).1.nonCumulative = [] := by
  unfold checkCallbacks at hcb
  split at hcb
  · simp only [List.mem_singleton] at hcb
    subst hcb
    simp only [checkExec]
    split <;> exact hd
  · simp only [List.mem_singleton] at hcb
    subst hcb
    simp only [checkExec]
    split <;> exact hd
  · simp only [List.mem_singleton] at hcb
    subst hcb
    simp only [checkExec]
    split <;> exact hd
  · exact absurd rfl hs
  · simp at hcb

theorem no_margins_all (w : World K) (cfg : Pipeline J) : ∀ (l : List (Cb × String)),
    (∀ x ∈ l, x.1 ∈ checkCallbacks x.2 ∧ x.2 ≠ "refinement") →
    ∀ d : Machine.Attrs J Margins, d.nonCumulative = [] → (runCallbacks (checkExec w.steps) cfg l d).1.nonCumulative = []
  | [], _, d, hd => hd
  | (cb, s) :: l, hl, d, hd => by
    unfold runCallbacks
    obtain ⟨q1, q2⟩ := hl (cb, s) List.mem_cons_self
    have h1 := no_margins_one w cfg s cb q1 q2 d hd
    split
    · rename_i d' e he
      rw [he] at h1
      exact h1
    · rename_i d' he
      rw [he] at h1
      exact no_margins_all w cfg l (fun x hx => hl x (List.mem_cons_of_mem _ hx)) d' h1

theorem no_refinement_margins {w : World K} {user p0 pl' : Fields} {m : Mach (Machine.Attrs J Margins)} (hw : user.wf)
    (hu : user.get "pipeline" = some (.obj p0))
    (h : checkPipelineJ w.steps user (fresh .init) = (m, .ok (.cons "pipeline" (.obj pl') .nil))) (href : p0.get "refinement" = none) :
    refinementMargins m.data = none := by
  obtain ⟨-, -, -, hm, -⟩ := pipeline_new w.steps user p0 pl' m hw hu h
  have : m.data.nonCumulative = [] := by
    rw [hm]
    refine no_margins_all w _ _ ?_ _ rfl
    intro x hx
    unfold checkPlan at hx
    rw [List.mem_flatMap] at hx
    obtain ⟨s, hs, hx⟩ := hx
    rw [List.mem_map] at hx
    obtain ⟨cb, hcb, rfl⟩ := hx
    refine ⟨hcb, ?_⟩
    rintro rfl
    rw [Fields.get_eq_none] at href
    exact href hs
  unfold refinementMargins lookup
  rw [this]
  rfl

/-! ## The displaced image -/

theorem slab_displaced (img : Img K) (s : Nat) (hs : 0 < s) (d : K) (hd : ∃ k : Int, d * s = k) :
    Displaced (slabImg zoomLinear img s d) img d := by
  have e : (zoomed zoomLinear img s (iRight d s)).h = img.h ∧ (zoomed zoomLinear img s (iRight d s)).w = img.w ∧
      (zoomed zoomLinear img s (iRight d s)).noData = img.noData := by
    unfold zoomed
    split <;> exact ⟨rfl, rfl, rfl⟩
  refine ⟨⟨e.1, e.2.1⟩, e.2.2, slab_samples img s hs d hd, fun r c => ?_, fun r c => ?_⟩
  · have gen : ∀ b : Bool, decide ((if b = true then (1 : Int) else 0) = 1) = b := by decide
    have h := gen (F.eq ((slabImg zoomLinear img s d).im r c) (zoomed zoomLinear img s (iRight d s)).noData)
    rw [← e.2.2]
    exact h
  · unfold slabImg shiftDispRow Pandora.invalidAt
    simp only [decide_eq_false_iff_not, not_and, not_not]
    intro h
    split_ifs at h ⊢ <;> simp_all

/-- C16 (any step, ranges of uniform width, as configured): a cell of the user's ranges is the Pandora cost of the left pixel at the
coordinates of the cell, with the right image displaced by the row disparity of the cell, when its two disparities are in the ranges of
this pixel, and NaN otherwise. -/
theorem C16_cell_own_range {pc : Pandora.Cost K} {cfg : Cfg} {roi : Option Roi} {left : Left K} {right : Img K} {margins : Option Margins}
    {cv : CostVolumes K} (hp : PairOk left right) (hur : Uniform left.rowDisp left.img.h left.img.w)
    (huc : Uniform left.colDisp left.img.h left.img.w) (hs : 0 < cfg.subpix) (h1 : 1 ≤ cfg.stepRow) (h2 : 1 ≤ cfg.stepCol)
    (h : computeCostVolumes zoomLinear pc cfg roi left right margins = .ok cv) {r c i j : Nat} (hpx : Pixel cv r c) (ui : UserCol cv i)
    (uj : UserRow cv j) :
    ∃ displaced, Displaced displaced right (cv.dispRow.get j) ∧
    (InRange left.rowDisp (cv.row.get r - left.img.row0).toNat (cv.col.get c - left.img.col0).toNat (cv.dispRow.get j) ∧
      InRange left.colDisp (cv.row.get r - left.img.row0).toNat (cv.col.get c - left.img.col0).toNat (cv.dispCol.get i) →
      cv.data r c i j = pc left.img displaced
        (widened left.colDisp.lo (-((mgD margins).left : Int))) (widened left.colDisp.hi (mgD margins).right)
        (cv.row.get r - left.img.row0).toNat (cv.col.get c - left.img.col0).toNat (cv.dispCol.get i)) ∧
    (¬ (InRange left.rowDisp (cv.row.get r - left.img.row0).toNat (cv.col.get c - left.img.col0).toNat (cv.dispRow.get j) ∧
      InRange left.colDisp (cv.row.get r - left.img.row0).toNat (cv.col.get c - left.img.col0).toNat (cv.dispCol.get i)) →
      cv.data r c i j = .nan) := by
  refine ⟨slabImg zoomLinear right cfg.subpix (cv.dispRow.get j), slab_displaced _ _ hs _ ?_, cells_own hp hur huc hs h1 h2 h hpx ui uj⟩
  obtain ⟨hj, -⟩ := userRow_src hp hs h1 h uj
  obtain ⟨-, -, -, e4, -⟩ := compute_char hp hs h1 h
  have ax := axisRow_spec hp margins hs
  rw [← e4] at ax
  exact axis_multiple hs ax hj

section
variable {w : World K} {user p0 mc : Fields} {out : List (Written K)} {H W : Nat} {rf rl cf cl : Int} {n : Nat} {me : Measure}
  {pc : Pandora.Cost K}

/-- The matching cost which runs is the one chosen for the section of the user. -/
theorem Stages.matcher (s : Stages w user p0 out) (hkeeps : PandoraKeeps w.pandora) (hw : user.wf)
    (hu : user.get "pipeline" = some (.obj p0)) (hmc : p0.get "matching_cost" = some (.obj mc)) (hm : MatcherIs w mc n me pc) :
    s.plan.cfg.subpix = n ∧ s.plan.cfg.measure = me ∧ s.plan.cost = pc := by
  obtain ⟨-, -, -, -, hg⟩ := pipeline_new w.steps user p0 s.pl s.m hw hu s.pipeline
  have hpw : p0.wf := Fields.wf_get user hw hu
  obtain ⟨mc', m1, m2⟩ := s.reads.matching
  rw [hmc, Option.some.injEq, J.obj.injEq] at m1
  subst m1
  obtain ⟨cm, vm', hm1, -, hm2, hm3⟩ := hg _ _ hmc
  obtain ⟨k, hbm, hsub⟩ := mc_rebuilt_exact hkeeps hm1 hm2 m2
  obtain ⟨vb, hvb, hvb'⟩ := s.reads.built
  rw [hm3, Option.some.injEq] at hvb
  subst hvb
  rw [hbm, Except.ok.injEq, StepCfg.matchingCost.injEq] at hvb'
  obtain ⟨hcfg, -, hcost⟩ := hvb'
  obtain ⟨c, st, wn, mar, g, x, x1, x2, x3, x4, x5, x6⟩ := hm
  obtain ⟨c', st', wn', mar', g', x', x1', x2', x3', x4'⟩ := hsub
  have hc : matchingCostCheck w.pandora (J.obj mc).convAll = .ok (cm, st', wn', mar') ∧ c' = cm := by
    simp only [Checked, String.reduceEq, false_and, true_and, false_or, or_false] at hm1
    obtain ⟨a, b, m, hm1⟩ := hm1
    have hm1 : matchingCostCheck w.pandora (J.obj mc).convAll = .ok (cm, a, b, m) := hm1
    rw [x1', Except.ok.injEq, Prod.mk.injEq] at hm1
    rw [← hm1.1]
    exact ⟨x1', rfl⟩
  obtain ⟨hc, rfl⟩ := hc
  rw [x1, Except.ok.injEq, Prod.mk.injEq] at x1'
  obtain ⟨rfl, -⟩ := x1'
  rw [x2, J.obj.injEq] at x2'
  subst x2'
  rw [x3, Option.some.injEq] at x3'
  subst x3'
  have : 2 ^ k = n := by exact_mod_cast IsInt.unique x4' x4
  rw [← hcfg, ← hcost, x5, x6]
  exact ⟨this, rfl, rfl⟩

/-- The images of a successful `main`. -/
theorem Stages.images (s : Stages w user p0 out) (hw : user.wf) {inp l r : Fields} (hi : user.get "input" = some (.obj inp))
    (hl : inp.get "left" = some (.obj l)) (hr : inp.get "right" = some (.obj r)) :
    ImagesRead w l r s.roi s.left.img s.right.img := by
  obtain ⟨-, -, lj, rj, h1, h2, h3, h4⟩ := created_input s.datasets
  have hin := s.input
  have hg : getConfigInput user = .cons "input" (.obj inp) .nil := by
    unfold getConfigInput
    rw [hi]
  rw [hg] at hin
  obtain ⟨-, inp', k1, k2⟩ := (C86_input _ _ _ _).1 hin
  rw [s.inputIs, Option.some.injEq, J.obj.injEq] at k1
  subst k1
  obtain ⟨-, ⟨v, v1, fl, rfl, -⟩, ⟨v', v1', fr, rfl, -⟩, -⟩ := k2
  rw [h1, Option.some.injEq] at v1
  rw [h2, Option.some.injEq] at v1'
  subst v1 v1'
  have key : ∀ {side : String} {u c : Fields}, inp.get side = some (.obj u) → s.inp.get side = some (.obj c) → ∀ k v, u.get k = some v →
      v.isLeaf = true → c.get k = some (readValue v) := by
    intro side u c hu hc k v hk hv
    have := C37_input_values_partial w.env (getConfigInput user) s.cin _ (getConfigInput_wf hw) s.input ["input", side, k] v
      (by simp [J.at, getConfigInput_get, hi, hu, hk]) hv
    simpa [J.at, s.inputIs, hc] using this
  exact ⟨fl, fr, key hl h1, key hr h2, h3, h4⟩

/-- The rasters of a successful `main` without refinement. -/
theorem Stages.winner (s : Stages w user p0 out) (hdisk : DiskContract w H W) (hkeeps : PandoraKeeps w.pandora) (hw : user.wf)
    (hu : user.get "pipeline" = some (.obj p0)) (hz : ZoneIs user H W rf rl cf cl) (hl : rl < H ∧ cl < W)
    (href : p0.get "refinement" = none) (hmc : p0.get "matching_cost" = some (.obj mc)) (hm : MatcherIs w mc n me pc) :
    0 < n ∧ ∃ (dRow dCol : Disp) (gmin gmax : Arr2 Int),
      (∃ i3, s.cfg3.get "input" = some (.obj i3) ∧ IsDisp w.files i3 "row_disparity" dRow ∧ IsDisp w.files i3 "col_disparity" dCol) ∧
      (p0.get "estimation" = none → IsDisp w.files s.inp "row_disparity" dRow ∧ IsDisp w.files s.inp "col_disparity" dCol) ∧
      ReadZone s.left.img s.roi H W rf rl cf cl ∧ (s.right.img.h = s.left.img.h ∧ s.right.img.w = s.left.img.w) ∧
      GridIs gmin s.left.img dCol (-dCol.range) ∧ GridIs gmax s.left.img dCol dCol.range ∧
      (∃ M, getMinMax s.left.img.row0 s.left.img.col0 s.left.img.h s.left.img.w dCol false = .ok M ∧ gmin = widened M.lo 0 ∧
        gmax = widened M.hi 0) ∧
      (Covers dRow s.left.img.row0 s.left.img.col0 s.left.img.h s.left.img.w ∧
        Covers dCol s.left.img.row0 s.left.img.col0 s.left.img.h s.left.img.w) ∧
      (∀ rr rc sf, s.plan.estimation = some (rr, rc, sf) → ∃ a b, w.run.correlation s.left.img s.right.img sf = (.fin a, .fin b) ∧
        dRow = ⟨.const (pyRound (-a)), rr⟩ ∧ dCol = ⟨.const (pyRound (-b)), rc⟩) ∧
      ∀ i < s.files.row.h, ∀ j < s.files.row.w,
        (∃ a b : Nat, a < s.left.img.h ∧ b < s.left.img.w ∧ rf + (i : Int) * s.plan.cfg.stepRow = s.left.img.row0 + a ∧
          cf + (j : Int) * s.plan.cfg.stepCol = s.left.img.col0 + b) ∧
        BestPair me (AskedPair dRow dCol n (rf + (i : Int) * s.plan.cfg.stepRow) (cf + (j : Int) * s.plan.cfg.stepCol))
          (fun dr dc => pc s.left.img (slabImg w.run.zoom s.right.img n dr) gmin gmax
            (rf + (i : Int) * s.plan.cfg.stepRow - s.left.img.row0).toNat (cf + (j : Int) * s.plan.cfg.stepCol - s.left.img.col0).toNat dc)
          s.plan.invalid (s.files.row.values i j) (s.files.col.values i j) (s.files.score.values i j) := by
  obtain ⟨hin, hzone⟩ := s.zone hdisk hz hl
  obtain ⟨-, hsize, -⟩ := s.image hdisk hin
  obtain ⟨dRow, dCol, L, cv, o, m, e1, e2, e3, e4, e5, e6, hp, r2, r3, r4, hmaps, e7, e8, e9⟩ := s.volumes hdisk hin hw hu
  obtain ⟨b1, b2, b3, b4⟩ := s.reads.steps
  obtain ⟨m1, m2, m3⟩ := s.matcher hkeeps hw hu hmc hm
  rw [s.reads.noRefinement href] at r4
  simp only [List.map_nil, refinedAll, Except.ok.injEq] at r4
  subst r4
  rw [no_refinement_margins hw hu s.pipeline href] at r2
  have hsave := s.saved
  rw [hmaps] at hsave
  simp only at hsave
  obtain ⟨files, after, q1, q2, q3⟩ := saved_zone hp b3 b1 b2 (by rw [e2]; exact hzone) r2 o.row.get o.col.get o.score.get
    (w.crs s.leftJ) (w.transform s.leftJ)
  rw [q1, Except.ok.injEq, Prod.mk.injEq] at hsave
  obtain ⟨hfile, -⟩ := hsave
  rw [← hfile]
  refine ⟨by rw [← m1]; exact b3, dRow, dCol, widened L.colDisp.lo 0, widened L.colDisp.hi 0, e7, e8, hzone, hsize, ?_, ?_,
    ⟨L.colDisp, by rw [← e2]; exact e6, rfl, rfl⟩, by rw [← e2]; exact ⟨e3, e4⟩, e9, fun i hi j hj => ?_⟩
  · intro x hx y hy
    rw [← e2] at hx hy ⊢
    have := (configured_at e4 e6 hx hy).1
    simp only [widened]
    omega
  · intro x hx y hy
    rw [← e2] at hx hy ⊢
    have := (configured_at e4 e6 hx hy).2
    simp only [widened]
    omega
  · obtain ⟨r', hr', c', hc', g1, g2, g3, g4, g5⟩ := q3 i hi j hj
    have key := volume_winner hp (uniform_of_config _ _ _ _ _ _ e5) (uniform_of_config _ _ _ _ _ _ e6) b4 b3 b1 b2 r2 r3
      (show Pixel cv r' c' from ⟨hr', hc'⟩)
    obtain ⟨x1, x2, -⟩ := compute_char hp b3 b1 r2
    have i1 : 0 ≤ cv.row.get r' - L.img.row0 ∧ cv.row.get r' - L.img.row0 < L.img.h := by
      rw [x1, rowCoords_eq] at hr' ⊢; exact coords_in _ _ _ _ b1 hr'
    have i2 : 0 ≤ cv.col.get c' - L.img.col0 ∧ cv.col.get c' - L.img.col0 < L.img.w := by
      rw [x2, colCoords_eq] at hc' ⊢; exact coords_in _ _ _ _ b2 hc'
    obtain ⟨y1, y2⟩ := configured_at e3 e5 (r := (cv.row.get r' - L.img.row0).toNat) (c := (cv.col.get c' - L.img.col0).toNat)
      (by omega) (by omega)
    obtain ⟨y3, y4⟩ := configured_at e4 e6 (r := (cv.row.get r' - L.img.row0).toNat) (c := (cv.col.get c' - L.img.col0).toNat)
      (by omega) (by omega)
    rw [Int.toNat_of_nonneg i1.1, Int.toNat_of_nonneg i2.1, show L.img.row0 + (cv.row.get r' - L.img.row0) = cv.row.get r' by omega,
      show L.img.col0 + (cv.col.get c' - L.img.col0) = cv.col.get c' by omega] at y1 y2 y3 y4
    refine ⟨⟨(cv.row.get r' - L.img.row0).toNat, (cv.col.get c' - L.img.col0).toNat, ?_⟩, ?_⟩
    · rw [← g1, ← g2, ← e2]
      omega
    · unfold InRange at key
      rw [y1, y2, y3, y4, m1, m2, m3, g1, g2, e2] at key
      rw [g3, g4, g5]
      exact key

end

/-- C87: for every successful execution without estimation nor refinement, every ROI inside the image or none, every steps, subpixel factor
and kind of initial disparities: each pixel of the rasters is compared with all the pairs asked by the user for that pixel. It is invalid in
the three rasters when no pair has a cost. Otherwise the score is the best cost, and the disparities are the smallest ones which reach it.
The costs are those of Pandora, for the images read from the disk, the right image being displaced by each row disparity. -/
theorem C87_best_pair (w : World K) (user p0 mc inp l r : Fields) (out : List (Written K)) (H W : Nat) (dRow dCol : Disp)
    (rf rl cf cl : Int) (sr sc : Nat) (invalid : F K) (n : Nat) (me : Measure) (pc : Pandora.Cost K) (hw : user.wf)
    (hdisk : DiskContract w H W) (hpan : PandoraContract w) (hkeeps : PandoraKeeps w.pandora) (hzoom : w.run.zoom = zoomLinear)
    (hu : user.get "pipeline" = some (.obj p0)) (he : p0.get "estimation" = none) (href : p0.get "refinement" = none)
    (hmc : p0.get "matching_cost" = some (.obj mc)) (hm : MatcherIs w mc n me pc)
    (ask : Asks w user H W dRow dCol rf rl cf cl sr sc invalid) (hl : rl < H ∧ cl < W)
    (hi : user.get "input" = some (.obj inp)) (hleft : inp.get "left" = some (.obj l)) (hright : inp.get "right" = some (.obj r))
    (h : Main.main w user = (out, none)) :
    ∃ files rest roi left right gmin gmax, ∃ displaced : K → Img K, out = .rasters files :: rest ∧
      ImagesRead w l r roi left right ∧ ReadZone left roi H W rf rl cf cl ∧
      GridIs gmin left dCol (-dCol.range) ∧ GridIs gmax left dCol dCol.range ∧
      (∀ dr : K, (∃ a : Int, dr * (n : K) = (a : K)) → Displaced (displaced dr) right dr) ∧
      ∀ i < files.row.h, ∀ j < files.row.w,
        BestPair me (AskedPair dRow dCol n (rf + (i : Int) * sr) (cf + (j : Int) * sc))
          (fun dr dc => pc left (displaced dr) gmin gmax (rf + (i : Int) * sr - left.row0).toNat (cf + (j : Int) * sc - left.col0).toNat dc)
          invalid (files.row.values i j) (files.col.values i j) (files.score.values i j) := by
  obtain ⟨pl, mc', disp, a1, a2, a3, a4, a5⟩ := ask.steps
  rw [hu, Option.some.injEq, J.obj.injEq] at a1
  subst a1
  rw [hmc, Option.some.injEq, J.obj.injEq] at a2
  subst a2
  have hd : "disparity" ∈ p0.keys := (Fields.get_isSome p0 _).1 (by rw [a3]; rfl)
  obtain ⟨s⟩ := main_stages w user p0 out hw hpan hu hd h
  obtain ⟨hn, dRow', dCol', gmin, gmax, -, i1, i2, i3, i4, i5, -, -, -, i6⟩ := s.winner hdisk hkeeps hw hu ask.zone hl href hmc hm
  obtain ⟨j1, j2⟩ := i1 he
  obtain ⟨mc', m1, m2⟩ := s.reads.matching
  rw [hmc, Option.some.injEq, J.obj.injEq] at m1
  subst m1
  obtain ⟨rfl, rfl⟩ := StepIs.unique a4 m2
  obtain ⟨disp', n1, n2⟩ := s.reads.disparity
  rw [a3, Option.some.injEq, J.obj.injEq] at n1
  subst n1
  obtain rfl := InvalidIs.unique a5 n2
  obtain ⟨inp', b1, b2, b3⟩ := ask.disparities
  have hge : givesEstimation p0 = false := by unfold givesEstimation; rw [he]
  have hin := s.input
  rw [hge] at hin
  obtain ⟨c, c1, c2, -, -⟩ := checkInputSection_ok hin
  simp only [Bool.false_eq_true, if_false] at c2
  subst c2
  obtain ⟨uf, u1, u2, u3⟩ := input_section_get (getConfigInput_wf hw) c1 s.inputIs (by rw [getConfigInput_get, b1]; rfl)
  rw [getConfigInput_get, b1, Option.some.injEq, J.obj.injEq] at u1
  subst u1
  obtain rfl := isDisp_checked u2 (u3 _ (by decide) (by decide)) b2 j1
  obtain rfl := isDisp_checked u2 (u3 _ (by decide) (by decide)) b3 j2
  refine ⟨s.files, _, s.roi, s.left.img, s.right.img, gmin, gmax, slabImg w.run.zoom s.right.img n, s.outIs,
    s.images hw hi hleft hright, i2, i4, i5, fun dr hdr => ?_, fun i hi' j hj => (i6 i hi' j hj).2⟩
  rw [hzoom]
  exact slab_displaced _ _ hn _ hdr

/-- C87 with an estimation: for every successful execution without refinement, the same with the pairs asked by the saved configuration,
whose disparities are those given by the user or those of the estimation. -/
theorem C87_best_pair_saved (w : World K) (user p0 mc disp inp l r : Fields) (out : List (Written K)) (H W : Nat)
    (rf rl cf cl : Int) (sr sc : Nat) (invalid : F K) (n : Nat) (me : Measure) (pc : Pandora.Cost K) (hw : user.wf)
    (hdisk : DiskContract w H W) (hpan : PandoraContract w) (hkeeps : PandoraKeeps w.pandora) (hzoom : w.run.zoom = zoomLinear)
    (hu : user.get "pipeline" = some (.obj p0)) (href : p0.get "refinement" = none)
    (hmc : p0.get "matching_cost" = some (.obj mc)) (hst : StepIs mc sr sc) (hm : MatcherIs w mc n me pc)
    (hdi : p0.get "disparity" = some (.obj disp)) (hinv : InvalidIs disp invalid)
    (hz : ZoneIs user H W rf rl cf cl) (hl : rl < H ∧ cl < W)
    (hi : user.get "input" = some (.obj inp)) (hleft : inp.get "left" = some (.obj l)) (hright : inp.get "right" = some (.obj r))
    (h : Main.main w user = (out, none)) :
    ∃ files row col saved rest inp' dRow dCol roi left right gmin gmax, ∃ displaced : K → Img K,
      out = .rasters files :: .report row col :: .config saved :: rest ∧ saved.get "input" = some (.obj inp') ∧
      IsDisp w.files inp' "row_disparity" dRow ∧ IsDisp w.files inp' "col_disparity" dCol ∧
      ImagesRead w l r roi left right ∧ ReadZone left roi H W rf rl cf cl ∧
      GridIs gmin left dCol (-dCol.range) ∧ GridIs gmax left dCol dCol.range ∧
      (∀ dr : K, (∃ a : Int, dr * (n : K) = (a : K)) → Displaced (displaced dr) right dr) ∧
      ∀ i < files.row.h, ∀ j < files.row.w,
        BestPair me (AskedPair dRow dCol n (rf + (i : Int) * sr) (cf + (j : Int) * sc))
          (fun dr dc => pc left (displaced dr) gmin gmax (rf + (i : Int) * sr - left.row0).toNat (cf + (j : Int) * sc - left.col0).toNat dc)
          invalid (files.row.values i j) (files.col.values i j) (files.score.values i j) := by
  have hd : "disparity" ∈ p0.keys := (Fields.get_isSome p0 _).1 (by rw [hdi]; rfl)
  obtain ⟨s⟩ := main_stages w user p0 out hw hpan hu hd h
  obtain ⟨hn, dRow, dCol, gmin, gmax, ⟨i3, k1, k2, k3⟩, -, i2, -, i4, i5, -, -, -, i6⟩ := s.winner hdisk hkeeps hw hu hz hl href hmc hm
  obtain ⟨mc', m1, m2⟩ := s.reads.matching
  rw [hmc, Option.some.injEq, J.obj.injEq] at m1
  subst m1
  obtain ⟨rfl, rfl⟩ := StepIs.unique hst m2
  obtain ⟨disp', n1, n2⟩ := s.reads.disparity
  rw [hdi, Option.some.injEq, J.obj.injEq] at n1
  subst n1
  obtain rfl := InvalidIs.unique hinv n2
  refine ⟨s.files, _, _, s.cfg3.set "margins" (w.marginsDict s.m.data.cumulative s.m.data.nonCumulative), _, i3, dRow, dCol, s.roi,
    s.left.img, s.right.img, gmin, gmax, slabImg w.run.zoom s.right.img n, s.outIs, ?_, k2, k3,
    s.images hw hi hleft hright, i2, i4, i5, fun dr hdr => ?_, fun i hi' j hj => (i6 i hi' j hj).2⟩
  · rw [Fields.get_set, if_neg (by decide)]; exact k1
  · rw [hzoom]
    exact slab_displaced _ _ hn _ hdr

/-! ## A translation -/

/-- A sum of terms which vanish on equal values only. -/
theorem sumOf_onlyEqual {f : K → K → K} (h0 : ∀ x y, 0 ≤ f x y) (h1 : ∀ x, f x x = 0) (h2 : ∀ x y, f x y = 0 → x = y) :
    OnlyEqual (sumOf f) := by
  intro l
  induction l with
  | nil => simp
  | cons p l ih =>
    intro h
    obtain ⟨x, y⟩ := p
    have hxy : ∃ k k', x = .fin k ∧ y = .fin k' := by
      cases x <;> cases y <;> first | exact ⟨_, _, rfl, rfl⟩ | exact absurd h (by simp [sumOf])
    obtain ⟨x, y, rfl, rfl⟩ := hxy
    have h' : F.add (.fin (f x y)) (sumOf f l) = .fin 0 := h
    cases hl : sumOf f l with
    | fin k =>
      rw [hl] at h'
      simp only [F.add, F.fin.injEq] at h'
      have hk : 0 ≤ k := by
        have := (sumOf_dissimilarity h0 h1).nonneg l
        rw [hl] at this
        simpa [F.lt] using this
      have hf := h0 x y
      have hk0 : k = 0 := by linarith
      have hx := h2 x y (by linarith)
      intro q hq
      rcases List.mem_cons.1 hq with rfl | hq
      · exact ⟨x, by rw [hx]⟩
      · exact ih (by rw [hl, hk0]) q hq
    | nan => rw [hl] at h'; exact absurd h' (by simp [F.add])
    | pinf => rw [hl] at h'; exact absurd h' (by simp [F.add])
    | ninf => rw [hl] at h'; exact absurd h' (by simp [F.add])

theorem sad_onlyEqual : OnlyEqual (sad : List (F K × F K) → F K) :=
  sumOf_onlyEqual (fun _ _ => abs_nonneg _) (fun _ => by simp) (fun x y h => by have := abs_eq_zero.1 h; linarith)

theorem ssd_onlyEqual : OnlyEqual (ssd : List (F K × F K) → F K) :=
  sumOf_onlyEqual (fun _ _ => mul_self_nonneg _) (fun _ => by simp) (fun x y h => by have := mul_self_eq_zero.1 h; linarith)

/-- A null window cost for disparities of whole pixels: the windows are equal. -/
theorem window_null {hw : Nat} {ker : List (F K × F K) → F K} (hk : OnlyEqual ker) {left right : Img K} {a b : Nat} {dr dc : Int}
    (hc : CleanWindow hw left right.noData a b) {gmin gmax : Arr2 Int}
    (h : Pandora.windowCost hw ker left (shiftDispRow right dr) gmin gmax a b ((dc : Int) : K) = .fin 0) :
    ¬ WindowsDiffer hw left right a b dr dc := by
  unfold Pandora.windowCost at h
  split_ifs at h with hok
  obtain ⟨⟨b1, b2, b3, b4⟩, ⟨b5, b6⟩, -, -, hnd, -⟩ := hok
  have hxc : ((b : Nat) : K) + ((dc : Int) : K) = (((b : Int) + dc : Int) : K) := by push_cast; rfl
  rw [hxc, Int.floor_intCast] at b5
  rw [hxc, Int.ceil_intCast] at b6
  rintro ⟨x, y, ⟨x1, x2⟩, ⟨y1, y2⟩, hd⟩
  have hw' : (shiftDispRow right dr).w = right.w := rfl
  rw [hw'] at b6
  obtain ⟨k, hp⟩ := hk _ h (left.im x y, Pandora.sampleCol (shiftDispRow right dr) x (((b : Nat) : K) + ((dc : Int) : K) + ((y + hw - b : Nat) : K) - (hw : K))) (by
    unfold Pandora.windowPairs
    rw [List.mem_flatMap]
    refine ⟨x + hw - a, List.mem_range.2 (by omega), ?_⟩
    rw [List.mem_map]
    refine ⟨y + hw - b, List.mem_range.2 (by omega), ?_⟩
    rw [show a + (x + hw - a) - hw = x by omega, show b + (y + hw - b) - hw = y by omega])
  have hpos : ((b : Nat) : K) + ((dc : Int) : K) + ((y + hw - b : Nat) : K) - (hw : K) = (((y : Int) + dc : Int) : K) := by
    have : ((y + hw - b : Nat) : K) = (y : K) + (hw : K) - (b : K) := by
      rw [Nat.cast_sub (by omega)]; push_cast; ring
    rw [this]; push_cast; ring
  rw [hpos] at hp
  unfold Pandora.sampleCol at hp
  rw [Int.fract_intCast, if_pos rfl, Int.floor_intCast] at hp
  simp only [Prod.mk.injEq] at hp
  obtain ⟨p1, p2⟩ := hp
  have hno := hnd (x + hw - a) (by omega) ((y : Int) + dc).toNat (by rw [hxc, Int.floor_intCast]; omega) (by rw [hxc, Int.ceil_intCast]; omega)
  rw [show a + (x + hw - a) - hw = x by omega] at hno
  have hin : 0 ≤ (x : Int) + dr ∧ (x : Int) + dr < right.h := by
    by_contra hout
    have hval : (shiftDispRow right dr).im x ((y : Int) + dc).toNat = right.noData := by
      unfold shiftDispRow
      simp only
      rw [if_neg hout]
    obtain ⟨-, hne, -⟩ := hc.1 x y x1 x2 y1 y2
    rw [hval] at p2
    exact hne (p1.trans p2.symm)
  have hval : (shiftDispRow right dr).im x ((y : Int) + dc).toNat = right.im ((x : Int) + dr).toNat ((y : Int) + dc).toNat := by
    unfold shiftDispRow
    simp only
    rw [if_pos hin]
  rw [hval] at p2
  exact hd _ _ (by omega) (by omega) (by omega) (by omega) (p2.trans p1.symm)

/-- The best pair of a pixel when the right image is the left one displaced. -/
theorem translated_best {zoom : Zoom K} {left right : Img K} {n hw' : Nat} {ker : List (F K × F K) → F K} {dRow dCol : Disp}
    {gmin gmax : Arr2 Int} {invalid row col score : F K} {a b : Nat} {dr dc : Int} (hk : Dissimilarity ker) (hk' : OnlyEqual ker)
    (key : BestPair .min (AskedPair dRow dCol n (left.row0 + (a : Int)) (left.col0 + (b : Int)))
      (fun x y => Pandora.windowCost hw' ker left (slabImg zoom right n x) gmin gmax a b y) invalid row col score)
    (hg : gmin.get a b ≤ dc ∧ dc ≤ gmax.get a b) (ht : Translated left right dr dc) (hb : BothInside hw' left right dr dc a b)
    (hcl : CleanWindow hw' left right.noData a b) (hint : InIntervals dRow dCol (left.row0 + a) (left.col0 + b) dr dc) :
    score = .fin 0 ∧
    (n = 1 → (∀ dr' dc', InIntervals dRow dCol (left.row0 + a) (left.col0 + b) dr' dc' → (dr', dc') ≠ (dr, dc) →
        WindowsDiffer hw' left right a b dr' dc') → row = .fin ((dr : Int) : K) ∧ col = .fin ((dc : Int) : K)) := by
  have hzero : Pandora.windowCost hw' ker left (slabImg zoom right n ((dr : Int) : K)) gmin gmax a b ((dc : Int) : K) =
      .fin 0 := by
    rw [slab_int]
    exact window_zero hk ht hb hcl hg
  have hasked : AskedPair dRow dCol n (left.row0 + (a : Int)) (left.col0 + (b : Int)) ((dr : Int) : K) ((dc : Int) : K) :=
    ⟨⟨dr * n, dc * n, by push_cast; rfl, by push_cast; rfl⟩, ⟨Int.cast_le.2 hint.1.1, Int.cast_le.2 hint.1.2⟩,
      ⟨Int.cast_le.2 hint.2.1, Int.cast_le.2 hint.2.2⟩⟩
  have hex : ∃ x y, AskedPair dRow dCol n (left.row0 + (a : Int)) (left.col0 + (b : Int)) x y ∧
      Pandora.windowCost hw' ker left (slabImg zoom right n x) gmin gmax a b y ≠ .nan :=
    ⟨_, _, hasked, by rw [hzero]; simp⟩
  have hscore : score = .fin 0 := by
    obtain ⟨⟨q1, x, y, -, q2⟩, q3⟩ := key.best hex
    have A := q3 (.fin 0) ⟨by simp, _, _, hasked, hzero⟩
    have hn1 := (isNaN_false_iff _).2 q1
    have A' : F.le (score) (.fin 0) = true := A
    have B : F.lt (score) (.fin 0) = false := by
      rw [← q2]
      unfold Pandora.windowCost
      split_ifs
      · exact hk.nonneg _
      · rfl
    rw [F.le_iff_not_lt hn1 (by rfl)] at A'
    exact F.lt_total hn1 (by rfl) B (by simpa using A')
  refine ⟨hscore, ?_⟩
  rintro rfl huniq
  obtain ⟨x, y, e1, e2, ⟨y', p1, p2⟩, ⟨x', p3, p4⟩, -⟩ := key.smallest hex
  rw [hscore] at p2 p4
  have only : ∀ x y : K, AskedPair dRow dCol 1 (left.row0 + (a : Int)) (left.col0 + (b : Int)) x y →
      Pandora.windowCost hw' ker left (slabImg zoom right 1 x) gmin gmax a b y = .fin 0 →
      x = ((dr : Int) : K) ∧ y = ((dc : Int) : K) := by
    rintro x y ⟨⟨u, v, hx, hy⟩, hr, hc⟩ h0
    rw [Nat.cast_one, mul_one] at hx hy
    subst hx hy
    rw [slab_int] at h0
    have hnd := window_null hk' hcl h0
    by_contra hne
    refine hnd (huniq u v ⟨⟨Int.cast_le.1 hr.1, Int.cast_le.1 hr.2⟩, ⟨Int.cast_le.1 hc.1, Int.cast_le.1 hc.2⟩⟩ fun heq => hne ?_)
    simp only [Prod.mk.injEq] at heq
    rw [heq.1, heq.2]
    exact ⟨rfl, rfl⟩
  rw [e1, e2, (only _ _ p1 p2).1, (only _ _ p3 p4).2]
  exact ⟨rfl, rfl⟩

/-- C88: a translation between the images is found again in the rasters. For every successful execution without estimation nor refinement,
with a window dissimilarity: let a pixel of the rasters, and a displacement of whole pixels in its intervals such that the right image read
is the left image displaced. When the two windows are inside the images read and the left one has no no-data, the score of the pixel is 0.
When moreover the subpixel factor is one and the windows of the other displacements differ, its disparities are the displacement. -/
theorem C88_translation_found (w : World K) (user p0 mc inp l r : Fields) (out : List (Written K)) (H W : Nat) (dRow dCol : Disp)
    (rf rl cf cl : Int) (sr sc : Nat) (invalid : F K) (n hw' : Nat) (ker : List (F K × F K) → F K) (hw : user.wf)
    (hdisk : DiskContract w H W) (hpan : PandoraContract w) (hkeeps : PandoraKeeps w.pandora)
    (hk : Dissimilarity ker) (hk' : OnlyEqual ker)
    (hu : user.get "pipeline" = some (.obj p0)) (he : p0.get "estimation" = none) (href : p0.get "refinement" = none)
    (hmc : p0.get "matching_cost" = some (.obj mc)) (hm : MatcherIs w mc n .min (Pandora.windowCost hw' ker))
    (ask : Asks w user H W dRow dCol rf rl cf cl sr sc invalid) (hl : rl < H ∧ cl < W)
    (hi : user.get "input" = some (.obj inp)) (hleft : inp.get "left" = some (.obj l)) (hright : inp.get "right" = some (.obj r))
    (h : Main.main w user = (out, none)) :
    ∃ files rest roi left right, out = .rasters files :: rest ∧ ImagesRead w l r roi left right ∧ ReadZone left roi H W rf rl cf cl ∧
      ∀ i < files.row.h, ∀ j < files.row.w, ∀ a b : Nat, rf + (i : Int) * sr = left.row0 + a → cf + (j : Int) * sc = left.col0 + b →
        ∀ dr dc : Int, Translated left right dr dc → BothInside hw' left right dr dc a b → CleanWindow hw' left right.noData a b →
          InIntervals dRow dCol (left.row0 + a) (left.col0 + b) dr dc →
          files.score.values i j = .fin 0 ∧
          (n = 1 → (∀ dr' dc', InIntervals dRow dCol (left.row0 + a) (left.col0 + b) dr' dc' → (dr', dc') ≠ (dr, dc) →
              WindowsDiffer hw' left right a b dr' dc') →
            files.row.values i j = .fin ((dr : Int) : K) ∧ files.col.values i j = .fin ((dc : Int) : K)) := by
  obtain ⟨pl, mc', disp, a1, a2, a3, a4, a5⟩ := ask.steps
  rw [hu, Option.some.injEq, J.obj.injEq] at a1
  subst a1
  rw [hmc, Option.some.injEq, J.obj.injEq] at a2
  subst a2
  have hd : "disparity" ∈ p0.keys := (Fields.get_isSome p0 _).1 (by rw [a3]; rfl)
  obtain ⟨s⟩ := main_stages w user p0 out hw hpan hu hd h
  obtain ⟨hn, dRow', dCol', gmin, gmax, -, i1, i2, i3, i4, i5, -, -, -, i6⟩ := s.winner hdisk hkeeps hw hu ask.zone hl href hmc hm
  obtain ⟨j1, j2⟩ := i1 he
  obtain ⟨mc', m1, m2⟩ := s.reads.matching
  rw [hmc, Option.some.injEq, J.obj.injEq] at m1
  subst m1
  obtain ⟨rfl, rfl⟩ := StepIs.unique a4 m2
  obtain ⟨inp', b1, b2, b3⟩ := ask.disparities
  have hge : givesEstimation p0 = false := by unfold givesEstimation; rw [he]
  have hin := s.input
  rw [hge] at hin
  obtain ⟨c, c1, c2, -, -⟩ := checkInputSection_ok hin
  simp only [Bool.false_eq_true, if_false] at c2
  subst c2
  obtain ⟨uf, u1, u2, u3⟩ := input_section_get (getConfigInput_wf hw) c1 s.inputIs (by rw [getConfigInput_get, b1]; rfl)
  rw [getConfigInput_get, b1, Option.some.injEq, J.obj.injEq] at u1
  subst u1
  obtain rfl := isDisp_checked u2 (u3 _ (by decide) (by decide)) b2 j1
  obtain rfl := isDisp_checked u2 (u3 _ (by decide) (by decide)) b3 j2
  refine ⟨s.files, _, s.roi, s.left.img, s.right.img, s.outIs, s.images hw hi hleft hright, i2, ?_⟩
  intro i hi' j hj a b hra hcb dr dc ht hb hcl hint
  have key := (i6 i hi' j hj).2
  rw [hra, hcb, show (s.left.img.row0 + (a : Int) - s.left.img.row0).toNat = a by omega,
    show (s.left.img.col0 + (b : Int) - s.left.img.col0).toNat = b by omega] at key
  have ha : a < s.left.img.h := by have := hb.1; omega
  have hbw : b < s.left.img.w := by have := hb.1; omega
  have hg : gmin.get a b ≤ dc ∧ dc ≤ gmax.get a b := by
    rw [i4 a ha b hbw, i5 a ha b hbw]
    have := hint.2
    omega
  exact translated_best hk hk' key hg ht hb hcl hint

/-! ### Non-vacuity -/

/-- The world of the examples with windows of one pixel compared by `sad`. -/
noncomputable def exWorldS : World ℚ := { exWorldI with cost := fun _ => Pandora.windowCost 0 sad }

theorem sad_finite (l : List (F ℚ × F ℚ)) : sad l ≠ .ninf ∧ sad l ≠ .pinf := by
  refine ⟨fun h => ?_, sad_dissimilarity.noInf l⟩
  have := (sad_dissimilarity (K := ℚ)).nonneg l
  rw [h] at this
  simp [F.lt] at this

theorem exWorldS_contract : RunContract exWorldS 5 3 := by
  obtain ⟨⟨d1, d2, d3, d4, d5⟩, ⟨p1, -⟩, k, r, a, o, i, s⟩ := exWorldI_contract
  exact ⟨⟨d1, d2, d3, d4, d5⟩, ⟨p1, fun _ => windowCost_contract 0 sad sad_finite⟩, k, r, a, o, i, s⟩

abbrev exUserS : Fields := exUserWith none 1 1 none (some (.int 0))

theorem exUserS_wf : exUserS.wf := by
  simp [exUserWith, exInput, exPipeline, dict, Fields.append, Fields.wf, J.wf, Fields.keys]

theorem exUserS_ok : Main.main exWorldS exUserS = ((Main.main exWorldS exUserS).1, none) := by
  have : (Main.main exWorldS exUserS).2 = none := by
    obtain ⟨m, cfg, h⟩ := accepted_ok (w := exWorldI) (user := exUserS) (by decide +kernel)
    refine C81_accepted_runs_partial exWorldS _ _ _ cfg m 5 3 1 2 0 2 1 1 exUserS_wf exWorldS_contract rfl (by decide) rfl
      (.inl ⟨_, _, rfl, .inl rfl, .inl rfl⟩) (exZone _ _ _ _ _) (by decide) ?_ ?_ (.inl ⟨rfl, rfl⟩) h
    · intro he
      exact absurd rfl he
    · intro v hv
      have : (exPipeline none 1 1 none).get "refinement" = none := by decide
      exact absurd (this.symm.trans hv) (by simp)
  rw [← this]

theorem exUserS_asks : Asks exWorldS exUserS 5 3 ⟨.const 0, 1⟩ ⟨.const 0, 1⟩ 1 2 0 2 1 1 .nan :=
  ⟨⟨_, rfl, ⟨_, _, _, rfl, rfl, rfl, .inl rfl, .inl ⟨_, .inl rfl, rfl⟩⟩, ⟨_, _, _, rfl, rfl, rfl, .inl rfl, .inl ⟨_, .inl rfl, rfl⟩⟩⟩,
    exZone _ _ _ _ _,
    ⟨_, _, _, rfl, rfl, rfl, .inl ⟨_, _, rfl, .inl rfl, .inl rfl⟩, .inl ⟨_, rfl, .inr (.inr (.inl ⟨rfl, rfl⟩))⟩⟩⟩

theorem exUserS_matcher : MatcherIs exWorldS (dict [("matching_cost_method", .str "zncc"), ("window_size", .int 1),
      ("step", .arr (.cons (.int 1) (.cons (.int 1) .nil)))]) 1 .min (Pandora.windowCost 0 sad) :=
  ⟨_, _, _, _, _, _, rfl, rfl, rfl, .inl rfl, rfl, rfl⟩

/-- The hypotheses of C87 hold for this execution. -/
example := C87_best_pair exWorldS exUserS _ _ _ _ _ _ 5 3 _ _ 1 2 0 2 1 1 .nan 1 .min _ exUserS_wf exWorldS_contract.disk exWorldS_contract.pandora
    exWorldS_contract.keeps rfl rfl rfl rfl rfl exUserS_matcher exUserS_asks (by decide) rfl rfl rfl exUserS_ok

/-- Those of C87 with an estimation hold for an execution. -/
example := C87_best_pair_saved exWorldI (exUserWith (some exEst) 2 1 none none) _ _ _ _ _ _ _ 5 3 1 2 0 2 2 1 .nan 1 .min _
    (by simp [exUserWith, exInput, exPipeline, exEst, dict, Fields.append, Fields.wf, J.wf, Fields.keys]) exWorldI_contract.disk
    exWorldI_contract.pandora exWorldI_contract.keeps rfl rfl rfl rfl (.inl ⟨_, _, rfl, .inl rfl, .inl rfl⟩)
    ⟨_, _, _, _, _, _, rfl, rfl, rfl, .inl rfl, rfl, rfl⟩ rfl (.inl ⟨_, rfl, .inr (.inr (.inl ⟨rfl, rfl⟩))⟩) (exZone _ _ _ _ _) (by decide)
    rfl rfl rfl (show _ = ((Main.main exWorldI (exUserWith (some exEst) 2 1 none none)).1, none) by
      have : (Main.main exWorldI (exUserWith (some exEst) 2 1 none none)).2 = none := by decide +kernel
      rw [← this])

/-- Those of C88 hold, and the displacement of one row of the pair is found for the first pixel. -/
example : ∃ files rest, (Main.main exWorldS exUserS).1 = .rasters files :: rest ∧
    (0 < files.row.h → 0 < files.row.w → files.score.values 0 0 = .fin 0 ∧ files.row.values 0 0 = .fin 1 ∧ files.col.values 0 0 = .fin 0) := by
  obtain ⟨files, rest, roi, left, right, h1, ⟨lj, rj, r1, r2, r3, r4⟩, h3, h4⟩ := C88_translation_found exWorldS exUserS _ _ _ _ _ _ 5 3 _ _
    1 2 0 2 1 1 .nan 1 0 _ exUserS_wf exWorldS_contract.disk exWorldS_contract.pandora exWorldS_contract.keeps sad_dissimilarity sad_onlyEqual
    rfl rfl rfl rfl exUserS_matcher exUserS_asks (by decide) rfl rfl rfl exUserS_ok
  refine ⟨files, rest, h1, fun hh hw => ?_⟩
  cases roi with
  | none =>
    have := h3.2.2.2.2.1
    omega
  | some R =>
    obtain ⟨⟨k1, k2, k3, k4, k5, k6, k7⟩, e1, e2, e3, e4⟩ := h3
    have l1 : isLeftSection (.obj lj) = true := by
      simp only [isLeftSection, r1 "img" _ rfl rfl]
      decide
    have l2 : isLeftSection (.obj rj) = false := by
      simp only [isLeftSection, r2 "img" _ rfl rfl]
      decide
    simp only [exWorldS, exWorldOf, l1, if_true, Except.ok.injEq] at r3
    simp only [exWorldS, exWorldOf, l2, Bool.false_eq_true, if_false, Except.ok.injEq] at r4
    subst r3 r4
    simp only [cropImg, exLeftImg] at k4 k5 k6 k7
    have key := h4 0 hh 0 hw (1 - max 0 (R.rowFirst - R.margins.up)).toNat (0 - max 0 (R.colFirst - R.margins.left)).toNat
      (by simp only [cropImg, exLeftImg]; omega) (by simp only [cropImg, exLeftImg]; omega) 1 0
      (by
        intro a b a' b' _ _ _ _ ha hb
        have hb' : b' = b := by omega
        have ha' : a' = a + 1 := by omega
        subst ha' hb'
        simp only [cropImg, exLeftImg, exRightImg, F.fin.injEq]
        push_cast
        ring)
      (by
        simp only [BothInside, cropImg, exLeftImg, exRightImg]
        omega)
      (by
        refine ⟨fun x y _ _ _ _ => ⟨⟨_, rfl⟩, ?_, rfl⟩, rfl⟩
        simp only [cropImg, exLeftImg, exRightImg, ne_eq, F.fin.injEq]
        intro h
        have : (0 : ℚ) ≤ 10 * ((x + (max 0 (R.rowFirst - R.margins.up)).toNat : Nat) : ℚ) + ((y + (max 0 (R.colFirst - R.margins.left)).toNat : Nat) : ℚ) := by
          positivity
        linarith)
      (by simp [InIntervals, initAt])
    refine ⟨key.1, ?_⟩
    have := key.2 rfl fun dr' dc' hd hne => ⟨(1 - max 0 (R.rowFirst - R.margins.up)).toNat,
      (0 - max 0 (R.colFirst - R.margins.left)).toNat, ⟨by omega, by omega⟩, ⟨by omega, by omega⟩, fun x' y' hx hy _ _ h => ?_⟩
    · simpa using this
    · simp only [cropImg, exLeftImg, exRightImg, F.fin.injEq] at h
      simp only [InIntervals, initAt] at hd
      apply hne
      have hz : (10 : Int) * ((x' + (max 0 (R.rowFirst - R.margins.up)).toNat : Nat) : Int) + ((y' + (max 0 (R.colFirst - R.margins.left)).toNat : Nat) : Int) - 10 =
          10 * (((1 - max 0 (R.rowFirst - R.margins.up)).toNat + (max 0 (R.rowFirst - R.margins.up)).toNat : Nat) : Int) +
          (((0 - max 0 (R.colFirst - R.margins.left)).toNat + (max 0 (R.colFirst - R.margins.left)).toNat : Nat) : Int) := by
        exact_mod_cast h
      rw [Prod.mk.injEq]
      omega

end Verif.Props
