import Verif.Spec.InterpMain
import Verif.Props.Refined
import Verif.Props.Interpolation
import Verif.Props.AcceptedExample

/-!
# C97: an execution with an interpolation
-/

namespace Verif.Props

open Verif Verif.Config Verif.Machine Verif.ImgTools Verif.MatchingCost Verif.Disparity Verif.Estimation Verif.Run Verif.Main Verif.Spec
  Verif.Save Verif.Statistics

set_option linter.unusedSectionVars false

variable {K : Type} [Field K] [LinearOrder K] [IsStrictOrderedRing K] [FloorRing K]

/-- A disparity of the volumes in the range of the pixel, or outside the ranges of all the pixels. -/
def KeptDisp (M : MinMax) (a b : Nat) (d : K) : Prop := InRange M a b d ∨ d < (M.src.1 : K) ∨ (M.src.2 : K) < d

section
variable {z : Zoom K} {pc : Pandora.Cost K} {cfg : Cfg} {roi : Option Roi} {left : Left K} {right : Img K}
  {margins : Option Disparity.Margins} {cv : CostVolumes K}

/-- Every cell of the volumes, margins included: the cost of Pandora when each disparity is in the interval of the pixel or outside the intervals
of all the pixels, NaN otherwise. -/
theorem cells_all (hp : PairOk left right) (hur : Uniform left.rowDisp left.img.h left.img.w)
    (huc : Uniform left.colDisp left.img.h left.img.w) (hs : 0 < cfg.subpix) (h1 : 1 ≤ cfg.stepRow) (h2 : 1 ≤ cfg.stepCol)
    (h : computeCostVolumes z pc cfg roi left right margins = .ok cv) {r c i j : Nat} (hpx : Pixel cv r c) (hi : i < cv.dispCol.n)
    (hj : j < cv.dispRow.n) :
    (KeptDisp left.rowDisp (cv.row.get r - left.img.row0).toNat (cv.col.get c - left.img.col0).toNat (cv.dispRow.get j) ∧
        KeptDisp left.colDisp (cv.row.get r - left.img.row0).toNat (cv.col.get c - left.img.col0).toNat (cv.dispCol.get i) →
      cv.data r c i j = pc left.img (slabImg z right cfg.subpix (cv.dispRow.get j))
        (widened left.colDisp.lo (-((mgD margins).left : Int))) (widened left.colDisp.hi (mgD margins).right)
        (cv.row.get r - left.img.row0).toNat (cv.col.get c - left.img.col0).toNat (cv.dispCol.get i)) ∧
    (¬ (KeptDisp left.rowDisp (cv.row.get r - left.img.row0).toNat (cv.col.get c - left.img.col0).toNat (cv.dispRow.get j) ∧
        KeptDisp left.colDisp (cv.row.get r - left.img.row0).toNat (cv.col.get c - left.img.col0).toNat (cv.dispCol.get i)) →
      cv.data r c i j = .nan) := by
  set a := (cv.row.get r - left.img.row0).toNat
  set b := (cv.col.get c - left.img.col0).toNat
  obtain ⟨e1, e2, e3, e4, -, -, -, hd⟩ := compute_char hp hs h1 h
  obtain ⟨mk1, mk2⟩ := masked_in_volume hp hs h1 h
  rw [rowCoords_eq] at e1
  rw [colCoords_eq] at e2
  have out : ∀ (M : MinMax) (d : K), RangesOk M left.img.h left.img.w → (d < (M.src.1 : K) ∨ (M.src.2 : K) < d) → ¬ MaskedBy M r c d := by
    intro M d hM hd hm
    have hb := hm.1
    rw [hM.shape.1, hM.shape.2.1] at hb
    rw [maskedBy_iff hM hb.1 hb.2] at hm
    rcases hd with hd | hd
    · exact absurd hm.2.1 (not_le.2 hd)
    · exact absurd hm.2.2 (not_le.2 hd)
  have key1 : MaskedBy left.rowDisp r c (cv.dispRow.get j) ↔ ¬ KeptDisp left.rowDisp a b (cv.dispRow.get j) := by
    by_cases hin : (left.rowDisp.src.1 : K) ≤ cv.dispRow.get j ∧ cv.dispRow.get j ≤ (left.rowDisp.src.2 : K)
    · rw [masked_own hs h1 h2 hp.hpos hp.wpos hp.row hur (by rw [e4]; exact axisRow_spec hp margins hs) e1 e2 mk1 hpx.1 hpx.2 hin]
      have : ¬ (cv.dispRow.get j < (left.rowDisp.src.1 : K) ∨ (left.rowDisp.src.2 : K) < cv.dispRow.get j) := by
        rw [not_or, not_lt, not_lt]; exact hin
      simp only [KeptDisp, this, or_false, a, b]
    · have hout : cv.dispRow.get j < (left.rowDisp.src.1 : K) ∨ (left.rowDisp.src.2 : K) < cv.dispRow.get j := by
        rw [not_and_or, not_le, not_le] at hin; exact hin
      simp only [KeptDisp, hout, or_true, not_true, iff_false]
      exact out _ _ hp.row hout
  have key2 : MaskedBy left.colDisp r c (cv.dispCol.get i) ↔ ¬ KeptDisp left.colDisp a b (cv.dispCol.get i) := by
    by_cases hin : (left.colDisp.src.1 : K) ≤ cv.dispCol.get i ∧ cv.dispCol.get i ≤ (left.colDisp.src.2 : K)
    · rw [masked_own hs h1 h2 hp.hpos hp.wpos hp.col huc (by rw [e3]; exact axisCol_spec hp margins hs) e1 e2 mk2 hpx.1 hpx.2 hin]
      have : ¬ (cv.dispCol.get i < (left.colDisp.src.1 : K) ∨ (left.colDisp.src.2 : K) < cv.dispCol.get i) := by
        rw [not_or, not_lt, not_lt]; exact hin
      simp only [KeptDisp, this, or_false, a, b]
    · have hout : cv.dispCol.get i < (left.colDisp.src.1 : K) ∨ (left.colDisp.src.2 : K) < cv.dispCol.get i := by
        rw [not_and_or, not_le, not_le] at hin; exact hin
      simp only [KeptDisp, hout, or_true, not_true, iff_false]
      exact out _ _ hp.col hout
  rw [hd r hpx.1 c hpx.2 i hi j hj]
  refine ⟨fun hk => if_neg ?_, fun hk => if_pos ?_⟩
  · rw [key1, key2]; tauto
  · rw [key1, key2]; tauto

end

section
variable {w : World K} {user p0 mc f : Fields} {out : List (Written K)} {H W : Nat} {rf rl cf cl : Int} {n : Nat} {me : Measure}
  {pc : Pandora.Cost K}

/-- The rasters of a successful `main` with an interpolation. -/
theorem Stages.interpWinner (s : Stages w user p0 out) (hdisk : DiskContract w H W) (hkeeps : PandoraKeeps w.pandora) (hw : user.wf)
    (hu : user.get "pipeline" = some (.obj p0)) (hz : ZoneIs user H W rf rl cf cl) (hl : rl < H ∧ cl < W)
    (href : p0.get "refinement" = some (.obj f)) (hm : f.get "refinement_method" = some (.str "interpolation"))
    (hmc : p0.get "matching_cost" = some (.obj mc)) (hmat : MatcherIs w mc n me pc) (hb : BoundsContract w.run.interp) :
    0 < n ∧ ∃ (dRow dCol : Disp) (ax ay : Arr1 K) (fr lr fc lc : Int) (gmin gmax : Arr2 Int),
      (∃ i3, s.cfg3.get "input" = some (.obj i3) ∧ IsDisp w.files i3 "row_disparity" dRow ∧ IsDisp w.files i3 "col_disparity" dCol) ∧
      (p0.get "estimation" = none → IsDisp w.files s.inp "row_disparity" dRow ∧ IsDisp w.files s.inp "col_disparity" dCol) ∧
      ReadZone s.left.img s.roi H W rf rl cf cl ∧ (s.right.img.h = s.left.img.h ∧ s.right.img.w = s.left.img.w) ∧
      (∀ f ∈ [s.files.row, s.files.col, s.files.score],
        ZoneFile f (w.transform s.leftJ) rf rl cf cl s.plan.cfg.stepRow s.plan.cfg.stepCol) ∧
      (Extent dRow s.left.img fr lr ∧ Extent dCol s.left.img fc lc) ∧
      (FullLattice ay (fr - 3) (lr + 3) n ∧ FullLattice ax (fc - 3) (lc + 3) n) ∧
      GridIs gmin s.left.img dCol (-dCol.range - 3) ∧ GridIs gmax s.left.img dCol (dCol.range + 3) ∧
      ∀ i < s.files.row.h, ∀ j < s.files.row.w, ∀ R C, R = rf + (i : Int) * s.plan.cfg.stepRow → C = cf + (j : Int) * s.plan.cfg.stepCol →
        ∃ r0 c0 s0, BestPair me (AskedPair dRow dCol n R C)
          (fun dr dc => pc s.left.img (slabImg w.run.zoom s.right.img n dr) gmin gmax (R - s.left.img.row0).toNat
            (C - s.left.img.col0).toNat dc) s.plan.invalid r0 c0 s0 ∧
          InterpPixel w.run.interp me (fun dr dc => ReadDisp dRow fr lr R C dr ∧ ReadDisp dCol fc lc R C dc)
            (fun dr dc => pc s.left.img (slabImg w.run.zoom s.right.img n dr) gmin gmax (R - s.left.img.row0).toNat
              (C - s.left.img.col0).toNat dc) ax ay r0 c0 (s.files.row.values i j) (s.files.col.values i j) (s.files.score.values i j) ∧
          InsideOrNan (fr - 3) (lr + 3) (fc - 3) (lc + 3) (s.files.row.values i j) (s.files.col.values i j) := by
  obtain ⟨hin, hzone⟩ := s.zone hdisk hz hl
  obtain ⟨-, hsize, -⟩ := s.image hdisk hin
  obtain ⟨dRow, dCol, L, cv, o, m, e1, e2, e3, e4, e5, e6, hp, r2, r3, r4, hmaps, e7, e8, e9⟩ := s.volumes hdisk hin hw hu
  obtain ⟨b1, b2, b3, b4⟩ := s.reads.steps
  obtain ⟨-, -, -, -, hg⟩ := pipeline_new w.steps user p0 s.pl s.m hw hu s.pipeline
  have hpw : p0.wf := Fields.wf_get user hw hu
  obtain ⟨u1, u2, u3⟩ := s.matcher hkeeps hw hu hmc hmat
  -- the interpolation
  obtain ⟨vm, cm', st, wn, mar, c', k1, k2, k3, k4, k5, k6⟩ := checked_with hw hu s.pipeline href
  obtain ⟨c, v', h1, h2, h3, h4⟩ := hg _ _ href
  rw [h2, Option.some.injEq, Prod.mk.injEq] at k6
  obtain ⟨-, rfl⟩ := k6
  have q := interp_rebuilt (w := w) (a := s.m.data) (Fields.wf_get p0 hpw href) hm k5 h3
  obtain ⟨v'', c', w1, w2, w3⟩ := s.reads.refinement _ href
  rw [h4, Option.some.injEq] at w1
  subst w1
  rw [q.1, Except.ok.injEq] at w2
  subst w2
  rw [refinement_margins hw hu s.pipeline h2, q.2] at r2
  rw [w3] at r4
  simp only [List.map_cons, List.map_nil, refinedAll, refined] at r4
  obtain ⟨o', y1, y2⟩ := bind_eq_ok r4
  obtain ⟨x, z1, z2⟩ := bind_eq_ok y1
  simp only [pure, Except.pure, Except.ok.injEq] at z2
  subst z2
  split_ifs at y2
  rw [Except.ok.injEq] at y2
  subst y2
  obtain ⟨oc, orr, os⟩ := x
  have hx : Interpolation.refinementMethod w.run.interp cv o.row o.col = .ok (oc, orr, os) := z1
  obtain ⟨⟨sh1, sh2⟩, sh3⟩ := maps_shape r3
  have hsave := s.saved
  rw [hmaps] at hsave
  simp only at hsave
  obtain ⟨files, after, v1, v2, v3⟩ := saved_zone hp b3 b1 b2 (by rw [e2]; exact hzone) r2 orr.get oc.get os.get
    (w.crs s.leftJ) (w.transform s.leftJ)
  rw [v1, Except.ok.injEq, Prod.mk.injEq] at hsave
  obtain ⟨hfile, -⟩ := hsave
  rw [← hfile]
  have hur := uniform_of_config _ _ _ _ _ _ e5
  have huc := uniform_of_config _ _ _ _ _ _ e6
  obtain ⟨lr, lc⟩ := C13_axes_full_lattice hp b3 b1 r2
  have ext : ∀ (d : Disp) (M : MinMax), Covers d L.img.row0 L.img.col0 L.img.h L.img.w →
      getMinMax L.img.row0 L.img.col0 L.img.h L.img.w d false = .ok M → RangesOk M L.img.h L.img.w →
      Extent d L.img M.src.1 M.src.2 := by
    intro d M hcv hM hok
    refine ⟨fun a ha b hb => ?_, ?_, ?_⟩
    · obtain ⟨t1, t2⟩ := configured_at hcv hM ha hb
      rw [← t1, ← t2]
      exact hok.inside a ha b hb
    · obtain ⟨a, ha, b, hb, t⟩ := hok.tightLo
      exact ⟨a, ha, b, hb, by rw [← (configured_at hcv hM ha hb).1, t]⟩
    · obtain ⟨a, ha, b, hb, t⟩ := hok.tightHi
      exact ⟨a, ha, b, hb, by rw [← (configured_at hcv hM ha hb).2, t]⟩
  have xr := ext dRow L.rowDisp e3 e5 hp.row
  have xc := ext dCol L.colDisp e4 e6 hp.col
  rw [e2] at xr xc
  rw [u1] at lr lc
  refine ⟨by rw [← u1]; exact b3, dRow, dCol, cv.dispCol, cv.dispRow, _, _, _, _,
    widened L.colDisp.lo (-(3 : Int)), widened L.colDisp.hi 3, e7, e8, hzone, hsize,
    fun f hf => ?_, ⟨xr, xc⟩, ⟨lr, lc⟩, ?_, ?_, fun i hi j hj R C hR hC => ?_⟩
  · obtain ⟨-, f1, f2, f3, f4⟩ := v2 f hf
    exact ⟨f1, f2, f3, f4⟩
  · intro x hx y hy
    rw [← e2] at hx hy ⊢
    have := (configured_at e4 e6 hx hy).1
    simp only [widened]
    omega
  · intro x hx y hy
    rw [← e2] at hx hy ⊢
    have := (configured_at e4 e6 hx hy).2
    simp only [widened]
    omega
  · obtain ⟨r', hr', c', hc', g1, g2, g3, g4, g5⟩ := v3 i hi j hj
    rw [← hR] at g1
    rw [← hC] at g2
    have hpx : Pixel cv r' c' := ⟨hr', hc'⟩
    have key := volume_winner hp hur huc b4 b3 b1 b2 r2 r3 hpx
    obtain ⟨x1, x2, x3, x4, x5, x6, x7, x8⟩ := compute_char hp b3 b1 r2
    have i1 : 0 ≤ cv.row.get r' - L.img.row0 ∧ cv.row.get r' - L.img.row0 < L.img.h := by
      rw [x1, rowCoords_eq] at hr' ⊢; exact coords_in _ _ _ _ b1 hr'
    have i2 : 0 ≤ cv.col.get c' - L.img.col0 ∧ cv.col.get c' - L.img.col0 < L.img.w := by
      rw [x2, colCoords_eq] at hc' ⊢; exact coords_in _ _ _ _ b2 hc'
    obtain ⟨y1, y2⟩ := configured_at e3 e5 (r := (cv.row.get r' - L.img.row0).toNat) (c := (cv.col.get c' - L.img.col0).toNat)
      (by omega) (by omega)
    obtain ⟨y3, y4⟩ := configured_at e4 e6 (r := (cv.row.get r' - L.img.row0).toNat) (c := (cv.col.get c' - L.img.col0).toNat)
      (by omega) (by omega)
    rw [Int.toNat_of_nonneg i1.1, Int.toNat_of_nonneg i2.1, show L.img.row0 + (cv.row.get r' - L.img.row0) = cv.row.get r' by omega,
      show L.img.col0 + (cv.col.get c' - L.img.col0) = cv.col.get c' by omega] at y1 y2 y3 y4
    have hcell : ∀ i < cv.dispCol.n, ∀ j < cv.dispRow.n,
        ((ReadDisp dRow L.rowDisp.src.1 L.rowDisp.src.2 R C (cv.dispRow.get j) ∧
          ReadDisp dCol L.colDisp.src.1 L.colDisp.src.2 R C (cv.dispCol.get i)) →
          cv.data r' c' i j = pc s.left.img (slabImg w.run.zoom s.right.img n (cv.dispRow.get j)) (widened L.colDisp.lo (-(3 : Int)))
            (widened L.colDisp.hi 3) (R - s.left.img.row0).toNat (C - s.left.img.col0).toNat (cv.dispCol.get i)) ∧
        (¬ (ReadDisp dRow L.rowDisp.src.1 L.rowDisp.src.2 R C (cv.dispRow.get j) ∧
          ReadDisp dCol L.colDisp.src.1 L.colDisp.src.2 R C (cv.dispCol.get i)) → cv.data r' c' i j = .nan) := by
      intro i hi j hj
      have := cells_all hp hur huc b3 b1 b2 r2 hpx hi hj
      unfold KeptDisp InRange at this
      rw [y1, y2, y3, y4, u1, u3, g1, g2, e2] at this
      exact this
    have hfin : ∀ i < cv.dispCol.n, ∀ j < cv.dispRow.n, cv.data r' c' i j ≠ cv.measure.worst := by
      intro i hi j hj
      rw [x8 r' hr' c' hc' i hi j hj]
      split_ifs
      · cases cv.measure <;> simp [Measure.worst]
      · cases cv.measure
        · exact (b4.finite _ _ _ _ _ _ _).1
        · exact (b4.finite _ _ _ _ _ _ _).2
    have hno : NoCost cv r' c' ↔ ∀ i < cv.dispCol.n, ∀ j < cv.dispRow.n, cv.data r' c' i j = .nan :=
      ⟨fun hn i hi j hj => (hn i hi j hj).resolve_right (hfin i hi j hj), fun hn i hi j hj => .inl (hn i hi j hj)⟩
    have sr : o.row.w = cv.col.n := sh2
    have sc : o.col.h = cv.row.n ∧ o.col.w = cv.col.n := sh3
    have rise : ∀ {a : Arr1 K} {x y : Int}, FullLattice a x y n → a.get 0 ≤ a.get (a.n - 1) := by
      intro a x y ha
      by_cases h0 : a.n - 1 = 0
      · rw [h0]
      · exact (ha.increasing 0 (a.n - 1) (by omega) (by have := ha.pos; omega)).le
    obtain ⟨p1, p2⟩ := C54_partial hb sr sc (rise lc) (rise lr) hx r' c' hr' hc'
    refine ⟨o.row.get r' c', o.col.get r' c', o.score.get r' c', ?_, ⟨fun he => ?_, fun he => ?_⟩, ?_⟩
    · unfold InRange at key
      rw [y1, y2, y3, y4, u1, u2, u3, g1, g2, e2] at key
      exact key
    · rw [g3, g4, g5]
      have hnan : NoCost cv r' c' := hno.2 fun i hi j hj => ?_
      · exact ⟨(p1 hnan).2.1, (p1 hnan).1, (p1 hnan).2.2⟩
      · by_cases hk : ReadDisp dRow L.rowDisp.src.1 L.rowDisp.src.2 R C (cv.dispRow.get j) ∧
          ReadDisp dCol L.colDisp.src.1 L.colDisp.src.2 R C (cv.dispCol.get i)
        · rw [(hcell i hi j hj).1 hk]
          exact he i hi j hj hk
        · exact (hcell i hi j hj).2 hk
    · obtain ⟨i0, hi0, j0, hj0, t1, t2⟩ := he
      have hn : ¬ NoCost cv r' c' := fun hn => t2 (by rw [← (hcell i0 hi0 j0 hj0).1 t1]; exact hno.1 hn i0 hi0 j0 hj0)
      obtain ⟨m, f, m1, m2, m8, m3, x, y, m4, m5, m6, m7⟩ := C53_minimised sr sc hx r' c' hr' hc' hn
      have usable : ∀ i < cv.dispCol.n, ∀ j < cv.dispRow.n, (cv.data r' c' i j ≠ .nan ∧ cv.data r' c' i j ≠ cv.measure.worst) ↔
          ((ReadDisp dRow L.rowDisp.src.1 L.rowDisp.src.2 R C (cv.dispRow.get j) ∧
            ReadDisp dCol L.colDisp.src.1 L.colDisp.src.2 R C (cv.dispCol.get i)) ∧
            pc s.left.img (slabImg w.run.zoom s.right.img n (cv.dispRow.get j)) (widened L.colDisp.lo (-(3 : Int))) (widened L.colDisp.hi 3)
              (R - s.left.img.row0).toNat (C - s.left.img.col0).toNat (cv.dispCol.get i) ≠ .nan) := by
        intro i hi j hj
        constructor
        · rintro ⟨h1, -⟩
          by_cases hk : ReadDisp dRow L.rowDisp.src.1 L.rowDisp.src.2 R C (cv.dispRow.get j) ∧
            ReadDisp dCol L.colDisp.src.1 L.colDisp.src.2 R C (cv.dispCol.get i)
          · rw [(hcell i hi j hj).1 hk] at h1
            exact ⟨hk, h1⟩
          · exact absurd ((hcell i hi j hj).2 hk) h1
        · rintro ⟨hk, h1⟩
          rw [← (hcell i hi j hj).1 hk] at h1
          exact ⟨h1, hfin i hi j hj⟩
      refine ⟨m, f, x, y, m1, fun i hi j hj hk hne => ?_, fun i hi j hj hk => ?_, m3, m4, by rw [g4, m5], by rw [g3, m6], by rw [g5, m7]⟩
      rotate_left
      · have t := m8 i hi j hj (fun q => hk ((usable i hi j hj).1 q))
        refine cast (congrArg (fun k => RowFilled cv.dispCol.n k m.get j (m.get j i)) ?_) t
        funext p
        exact propext (and_congr_right fun q => usable p.2 q.2 p.1 q.1)
      have hd := (hcell i hi j hj).1 hk
      rw [← hd] at hne ⊢
      rw [← u2, ← x7]
      exact m2 i hi j hj hne (hfin i hi j hj)
    · rw [g3, g4]
      by_cases hn : NoCost cv r' c'
      · exact .inl ⟨(p1 hn).2.1, (p1 hn).1⟩
      · obtain ⟨x, y, t1, t2, t3, t4, t5, t6⟩ := p2 hn
        rw [lc.first] at t3
        rw [lc.last] at t4
        rw [lr.first] at t5
        rw [lr.last] at t6
        exact .inr ⟨y, x, t2, t1, ⟨t5, t6⟩, t3, t4⟩

end

/-- C97: for every successful execution with an interpolation and without estimation, every ROI inside the image or none, steps, subpixel factor,
kind of initial disparities and cost: the three rasters hold exactly the points of the zone asked by the user. Each pixel is NaN in the three
rasters when none of the costs read for it exists. Otherwise its two disparities end the minimisation, which starts at its best pair (the one
written without refinement), of the surface interpolated from its own costs, on the axes of all the disparities asked widened by three; and its
score is the absolute value of this surface. The disparities stay on these axes. -/
theorem C97_interpolated_files (w : World K) (user p0 mc inp l r f : Fields) (out : List (Written K)) (H W : Nat) (dRow dCol : Disp)
    (rf rl cf cl : Int) (sr sc : Nat) (invalid : F K) (tr : Option (Affine K)) (n : Nat) (me : Measure) (pc : Pandora.Cost K)
    (hw : user.wf) (hdisk : DiskContract w H W) (hpan : PandoraContract w) (hkeeps : PandoraKeeps w.pandora)
    (hb : BoundsContract w.run.interp)
    (hzoom : w.run.zoom = zoomLinear) (hu : user.get "pipeline" = some (.obj p0)) (he : p0.get "estimation" = none)
    (href : p0.get "refinement" = some (.obj f)) (hm : f.get "refinement_method" = some (.str "interpolation"))
    (hmc : p0.get "matching_cost" = some (.obj mc)) (hmat : MatcherIs w mc n me pc)
    (ask : Asks w user H W dRow dCol rf rl cf cl sr sc invalid) (hl : rl < H ∧ cl < W) (ht : LeftTransform w user tr)
    (hi : user.get "input" = some (.obj inp)) (hleft : inp.get "left" = some (.obj l)) (hright : inp.get "right" = some (.obj r))
    (h : Main.main w user = (out, none)) :
    ∃ files rest roi left right gmin gmax, ∃ (ax ay : Arr1 K) (fr lr fc lc : Int) (displaced : K → Img K), out = .rasters files :: rest ∧
      (∀ f ∈ [files.row, files.col, files.score], ZoneFile f tr rf rl cf cl sr sc) ∧
      ImagesRead w l r roi left right ∧ ReadZone left roi H W rf rl cf cl ∧
      (Extent dRow left fr lr ∧ Extent dCol left fc lc) ∧
      (FullLattice ay (fr - 3) (lr + 3) n ∧ FullLattice ax (fc - 3) (lc + 3) n) ∧
      GridIs gmin left dCol (-dCol.range - 3) ∧ GridIs gmax left dCol (dCol.range + 3) ∧
      (∀ dr : K, (∃ a : Int, dr * (n : K) = (a : K)) → Displaced (displaced dr) right dr) ∧
      ∀ i < files.row.h, ∀ j < files.row.w, ∀ R C, R = rf + (i : Int) * sr → C = cf + (j : Int) * sc →
        ∃ r0 c0 s0, BestPair me (AskedPair dRow dCol n R C)
            (fun dr dc => pc left (displaced dr) gmin gmax (R - left.row0).toNat (C - left.col0).toNat dc) invalid r0 c0 s0 ∧
          InterpPixel w.run.interp me (fun dr dc => ReadDisp dRow fr lr R C dr ∧ ReadDisp dCol fc lc R C dc)
            (fun dr dc => pc left (displaced dr) gmin gmax (R - left.row0).toNat (C - left.col0).toNat dc) ax ay r0 c0
            (files.row.values i j) (files.col.values i j) (files.score.values i j) ∧
          InsideOrNan (fr - 3) (lr + 3) (fc - 3) (lc + 3) (files.row.values i j) (files.col.values i j) := by
  have hd : "disparity" ∈ p0.keys := by
    obtain ⟨pl, mc', disp, a1, a2, a3, -⟩ := ask.steps
    rw [hu, Option.some.injEq, J.obj.injEq] at a1
    subst a1
    exact (Fields.get_isSome _ _).1 (by rw [a3]; rfl)
  obtain ⟨s⟩ := main_stages w user p0 out hw hpan hu hd h
  obtain ⟨hn, dRow', dCol', ax, ay, fr, lr, fc, lc, gmin, gmax, -, i1, i2, -, i3, i4, i5, i6, i7, i8⟩ :=
    s.interpWinner hdisk hkeeps hw hu ask.zone hl href hm hmc hmat hb
  obtain ⟨j1, j2⟩ := i1 he
  obtain ⟨⟨rfl, rfl⟩, ⟨rfl, rfl⟩, rfl⟩ := s.asked hw hu he ask j1 j2
  rw [s.leftPath hw ht] at i3
  refine ⟨s.files, _, s.roi, s.left.img, s.right.img, gmin, gmax, ax, ay, fr, lr, fc, lc, slabImg w.run.zoom s.right.img n, s.outIs, i3,
    s.images hw hi hleft hright, i2, i4, i5, i6, i7, fun dr hdr => ?_, i8⟩
  rw [hzoom]
  exact slab_displaced _ _ hn _ hdr

/-! ### Non-vacuity -/

theorem exInterp_runs : (Main.main exWorldI (exUserWith none 1 1 (some exInterp) (some (.str "grid.tif")))).2 = none := by
  obtain ⟨m, cfg, h⟩ := accepted_ok (w := exWorldI) (user := exUserWith none 1 1 (some exInterp) (some (.str "grid.tif"))) (by decide +kernel)
  refine C81_accepted_runs_partial exWorldI _ _ _ cfg m 5 3 1 2 0 2 1 1 ?_ exWorldI_contract rfl (by decide) rfl
    (.inl ⟨_, _, rfl, .inl rfl, .inl rfl⟩) (exZone _ _ _ _ _) (by decide) ?_ ?_ (.inl ⟨rfl, rfl⟩) h
  · simp [exUserWith, exInput, exPipeline, exInterp, dict, Fields.append, Fields.wf, J.wf, Fields.keys]
  · intro he
    exact absurd rfl he
  · intro v hv
    have : v = exInterp := (Option.some.inj hv).symm
    subst this
    exact ⟨_, rfl, .inl rfl⟩

theorem exInterp_wf : (exUserWith none 1 1 (some exInterp) (some (.str "grid.tif"))).wf := by
  simp [exUserWith, exInput, exPipeline, exInterp, dict, Fields.append, Fields.wf, J.wf, Fields.keys]

theorem exInterp_ok : Main.main exWorldI (exUserWith none 1 1 (some exInterp) (some (.str "grid.tif"))) =
    ((Main.main exWorldI (exUserWith none 1 1 (some exInterp) (some (.str "grid.tif")))).1, none) := by
  have := exInterp_runs
  rw [← this]

/-- The hypotheses of `C97_interpolated_files` hold: initial disparities in a grid, a ROI of two rows. -/
example := C97_interpolated_files exWorldI (exUserWith none 1 1 (some exInterp) (some (.str "grid.tif"))) _ _ _ _ _ _ _ 5 3
  ⟨.grid ⟨5, 3, fun r _ => if r < 3 then 1 else 0⟩, 1⟩ ⟨.grid ⟨5, 3, fun r _ => if r < 3 then 1 else 0⟩, 1⟩
  1 2 0 2 1 1 .nan (some ⟨1, 0, 100, 0, -1, 200⟩) 1 _ _ exInterp_wf exWorldI_contract.disk exWorldI_contract.pandora exWorldI_contract.keeps
  exI_bounds rfl rfl rfl rfl rfl rfl ⟨_, _, _, _, _, _, rfl, rfl, rfl, .inl rfl, rfl, rfl⟩
  ⟨⟨_, rfl, ⟨_, _, _, rfl, rfl, rfl, .inl rfl, .inr ⟨_, rfl, rfl⟩⟩, ⟨_, _, _, rfl, rfl, rfl, .inl rfl, .inr ⟨_, rfl, rfl⟩⟩⟩,
    exZone _ _ _ _ _,
    ⟨_, _, _, rfl, rfl, rfl, .inl ⟨_, _, rfl, .inl rfl, .inl rfl⟩, .inl ⟨_, rfl, .inr (.inr (.inl ⟨rfl, rfl⟩))⟩⟩⟩
  (by decide) ⟨_, _, _, rfl, rfl, rfl, fun g hg => by simp [exWorldI, exWorldOf, exWorld, isLeftSection, hg]; decide⟩ rfl rfl rfl exInterp_ok

end Verif.Props
