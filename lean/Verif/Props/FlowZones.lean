import Verif.Spec.FlowZones
import Verif.Props.RefinedTiles
import Verif.Props.FlowSymmetry
import Verif.Props.RunsRoiFlow

/-!
# C136: regions with an optical flow
-/

namespace Verif.Props

open Verif Verif.Config Verif.Machine Verif.ImgTools Verif.MatchingCost Verif.Disparity Verif.Estimation Verif.Run Verif.Main Verif.Spec
  Verif.Save Verif.Statistics Verif.OpticalFlow

set_option linter.unusedSectionVars false

variable {K : Type} [Field K] [LinearOrder K] [IsStrictOrderedRing K] [FloorRing K]

/-- The cost of a displacement of the interval of the pixel does not depend on the interval. -/
theorem window_grids {hw : Nat} {ker : List (F K × F K) → F K} {left right : Img K} {gmin gmax gmin' gmax' : Arr2 Int} {a b : Nat} {y : K}
    (g : (gmin.get a b : K) ≤ y ∧ y ≤ (gmax.get a b : K)) (g' : (gmin'.get a b : K) ≤ y ∧ y ≤ (gmax'.get a b : K)) :
    Pandora.windowCost hw ker left right gmin gmax a b y = Pandora.windowCost hw ker left right gmin' gmax' a b y := by
  unfold Pandora.windowCost
  have e : Pandora.windowOk hw left right gmin gmax a b y ↔ Pandora.windowOk hw left right gmin' gmax' a b y :=
    ⟨fun ⟨q1, q2, _, q4⟩ => ⟨q1, q2, g', q4⟩, fun ⟨q1, q2, _, q4⟩ => ⟨q1, q2, g, q4⟩⟩
  by_cases q : Pandora.windowOk hw left right gmin gmax a b y
  · rw [if_pos q, if_pos (e.1 q)]
  · rw [if_neg q, if_neg (mt e.2 q)]

/-- A window which fits in a part of an image is the window of the image. -/
theorem windowOf_crop {full crop : Img K} {u v half : Nat} {r c : Int} (h : CropOf full crop u v) (hf : Spec.WindowFits crop half r c) :
    WindowSeen id (windowOf full half r c) (windowOf crop half r c) := by
  obtain ⟨f1, f2, f3, f4⟩ := hf
  have h1 := h.row0
  have h2 := h.col0
  refine ⟨⟨rfl, rfl⟩, fun i hi j hj => ?_⟩
  have hi : i < 2 * half + 1 := hi
  have hj : j < 2 * half + 1 := hj
  show crop.im (r - half - crop.row0 + i).toNat (c - half - crop.col0 + j).toNat = full.im (r - half - full.row0 + i).toNat (c - half - full.col0 + j).toNat
  rw [h.im _ (by omega) _ (by omega)]
  congr 1 <;> omega

/-- The same for the right windows, when the window fits in the part as soon as it fits in the image. -/
theorem rightWindow_crop {full crop : Img K} {u v half : Nat} {r c : Int} (h : CropOf full crop u v)
    (hf : Spec.WindowFits full half r c → Spec.WindowFits crop half r c) :
    WindowSeen id (rightWindow full half r c) (rightWindow crop half r c) := by
  unfold rightWindow
  by_cases q : Spec.WindowFits crop half r c
  · have q' : Spec.WindowFits full half r c := by
      obtain ⟨f1, f2, f3, f4⟩ := q
      have h1 := h.row0
      have h2 := h.col0
      have h3 := h.rows
      have h4 := h.cols
      refine ⟨?_, ?_, ?_, ?_⟩ <;> omega
    rw [if_pos q, if_pos q']
    exact windowOf_crop h q
  · rw [if_neg q, if_neg (mt hf q)]
    exact ⟨⟨rfl, rfl⟩, fun _ _ _ _ => rfl⟩

theorem windowSeen_parts {a b c : Win K} (h : WindowSeen id a b) (h' : WindowSeen id a c) : WindowSeen id b c := by
  obtain ⟨⟨h1, h2⟩, h3⟩ := h
  obtain ⟨⟨h4, h5⟩, h6⟩ := h'
  exact ⟨⟨h4.trans h1.symm, h5.trans h2.symm⟩, fun i hi j hj => by
    rw [h6 i (by omega) j (by omega), ← h3 i (by omega) j (by omega)]; rfl⟩

/-- A displaced window which fits in the image fits in what is read. -/
theorem fits_near {row0 col0 rf rl cf cl r c lor hir loc hic x y : Int} {h w H W half : Nat}
    (hz : row0 ≤ rf ∧ rl < row0 + h ∧ col0 ≤ cf ∧ cl < col0 + w) (r1 : rf + half ≤ r ∧ r + half ≤ rl) (r2 : cf + half ≤ c ∧ c + half ≤ cl)
    (m1 : row0 ≤ max 0 (r - half + lor)) (m2 : min (H : Int) (r + half + hir + 1) ≤ row0 + h)
    (m3 : col0 ≤ max 0 (c - half + loc)) (m4 : min (W : Int) (c + half + hic + 1) ≤ col0 + w)
    (u1 : min lor 0 ≤ x) (u2 : x ≤ max hir 0) (u3 : min loc 0 ≤ y) (u4 : y ≤ max hic 0)
    (q1 : 0 + (half : Int) ≤ r + x) (q2 : r + x + half < 0 + (H : Int)) (q3 : 0 + (half : Int) ≤ c + y) (q4 : c + y + half < 0 + (W : Int)) :
    row0 + half ≤ r + x ∧ r + x + half < row0 + h ∧ col0 + half ≤ c + y ∧ c + y + half < col0 + w := by
  refine ⟨?_, ?_, ?_, ?_⟩
  · clear m2 m3 m4 u2 u3 u4 q3 q4; omega
  · clear m1 m3 m4 u1 u3 u4 q3 q4; omega
  · clear m1 m2 m4 u1 u2 u4 q1 q2; omega
  · clear m1 m2 m3 u1 u2 u3 q1 q2; omega

section
variable {w : World K} {user p mc inp l r f : Fields} {H W : Nat} {dRow dCol : Disp} {rf rl cf cl : Int} {sr sc : Nat} {invalid : F K} {n hw : Nat}
  {me : Measure} {ker : List (F K × F K) → F K} {it half : Nat} {out : List (Written K)}

theorem flowZone_stages (cfg : FlowedZone w user p mc inp l r f H W dRow dCol rf rl cf cl sr sc invalid n hw me ker it half) (wf : user.wf)
    (hpan : PandoraContract w) (h : Main.main w user = (out, none)) : Nonempty (Stages w user p out) := by
  refine main_stages w user p out wf hpan cfg.pipeline ?_ h
  obtain ⟨pl, mc, disp, a1, a2, a3, -⟩ := cfg.asks.steps
  rw [cfg.pipeline, Option.some.injEq, J.obj.injEq] at a1
  subst a1
  exact (Fields.get_isSome _ _).1 (by rw [a3]; rfl)

/-- The pixels of an execution with an optical flow, on a region or on full images: those whose window is inside have the costs of the full images,
and those away from the border of the zone have the windows of the full images. -/
theorem Stages.flowZone (s : Stages w user p out)
    (cfg : FlowedZone w user p mc inp l r f H W dRow dCol rf rl cf cl sr sc invalid n hw me ker it half) (wf : user.wf)
    (hdisk : DiskContract w H W) (hcrop : CropsWhole w H W) (hkeeps : PandoraKeeps w.pandora) (hoff : OffsetContract w)
    (hzoom : w.run.zoom = zoomLinear) (hl : rl < H ∧ cl < W) {lj rj : J} {full fullR : Img K} (l1 : s.inp.get "left" = some lj)
    (l2 : s.inp.get "right" = some rj) (f1 : w.files.read lj none = .ok full) (f2 : w.files.read rj none = .ok fullR)
    (hnd : fullR.noData ≠ .nan) :
    1 ≤ half ∧
      (∀ f ∈ [s.files.row, s.files.col, s.files.score],
        (∀ i : Nat, i < f.h ↔ rf + (i : Int) * sr ≤ rl) ∧ ∀ j : Nat, j < f.w ↔ cf + (j : Int) * sc ≤ cl) ∧
      ∀ i < s.files.row.h, ∀ j < s.files.row.w, ∀ r c : Int, r = rf + (i : Int) * sr → c = cf + (j : Int) * sc →
        InsideRegion hw rf rl cf cl r c →
        ∃ r0 c0, BestPair me (AskedPair dRow dCol n r c) (fun dr dc => Pandora.windowCost hw ker full (slabImg zoomLinear fullR n dr)
            (wholeGrid dCol (-dCol.range) H W) (wholeGrid dCol dCol.range H W) r.toNat c.toNat dc) invalid r0 c0 (s.files.score.values i j) ∧
          (InnerOfZone rf rl cf cl sr sc half r c →
            FlowPixel w.run.flow half it s.left.img s.right.img r c
              (initAt dRow r c - dRow.range) (initAt dRow r c + dRow.range) (initAt dCol r c - dCol.range)
              (initAt dCol r c + dCol.range) invalid r0 c0 (s.files.row.values i j) (s.files.col.values i j) ∧
            WindowSeen id (windowOf full half r c) (windowOf s.left.img half r c) ∧
            ∀ a b : Int, min (initAt dRow r c - dRow.range) 0 ≤ a → a ≤ max (initAt dRow r c + dRow.range) 0 →
              min (initAt dCol r c - dCol.range) 0 ≤ b → b ≤ max (initAt dCol r c + dCol.range) 0 →
              WindowSeen id (rightWindow fullR half (r + a) (c + b)) (rightWindow s.right.img half (r + a) (c + b))) := by
  obtain ⟨hn, dRow1, dCol1, half', it', ml, mr, gmin, gmax, h1, k0, k1, -, i1, i2, i3, iz, i4, i5, i6⟩ :=
    s.flowWinner hdisk hkeeps hoff wf cfg.pipeline cfg.asks.zone hl cfg.refinement cfg.method cfg.cost cfg.matcher
  obtain ⟨j1, j2⟩ := i1 cfg.noEstimation
  obtain ⟨⟨rfl, rfl⟩, ⟨rfl, rfl⟩, rfl⟩ := s.asked wf cfg.pipeline cfg.noEstimation cfg.asks j1 j2
  obtain rfl := flow_iterations_unique cfg.iterations k1
  obtain rfl := half_unique cfg.window k0
  have icov : (Covers dRow s.left.img.row0 s.left.img.col0 s.left.img.h s.left.img.w ∧
      Covers dCol s.left.img.row0 s.left.img.col0 s.left.img.h s.left.img.w) ∧ 0 ≤ dRow.range ∧ 0 ≤ dCol.range := by
    obtain ⟨dR, dC, L, -, -, -, e1, e2, e3, e4, -, -, -, -, -, -, -, -, e8, -⟩ :=
      s.volumes hdisk (s.zone hdisk cfg.asks.zone hl).1 wf cfg.pipeline
    obtain ⟨g1, g2⟩ := e8 cfg.noEstimation
    obtain ⟨⟨rfl, rfl⟩, -⟩ := s.asked wf cfg.pipeline cfg.noEstimation cfg.asks g1 g2
    rw [e2] at e3 e4
    exact ⟨⟨e3, e4⟩, e1⟩
  obtain ⟨icov, rr⟩ := icov
  obtain ⟨-, -, lj', rj', l1', l2', l3, l4⟩ := created_input s.datasets
  rw [l1, Option.some.injEq] at l1'
  rw [l2, Option.some.injEq] at l2'
  subst l1' l2'
  obtain ⟨w1, w2, w3, w4⟩ := hdisk.whole _ _ f1
  obtain ⟨w1', w2', w3', w4'⟩ := hdisk.whole _ _ f2
  -- what is read is a part of the full images which holds the zone and the displaced zone
  have part : (0 ≤ s.left.img.row0 ∧ 0 ≤ s.left.img.col0) ∧ CropOf full s.left.img s.left.img.row0.toNat s.left.img.col0.toNat ∧
      CropOf fullR s.right.img s.left.img.row0.toNat s.left.img.col0.toNat ∧
      (s.left.img.row0 ≤ rf ∧ rl < s.left.img.row0 + s.left.img.h ∧ s.left.img.col0 ≤ cf ∧ cl < s.left.img.col0 + s.left.img.w) ∧
      (∀ x d, rf ≤ x → x ≤ rl → InDispRange dRow d → s.left.img.row0 ≤ max 0 (x + d) ∧ min (H : Int) (x + d + 1) ≤ s.left.img.row0 + s.left.img.h) ∧
      ∀ x d, cf ≤ x → x ≤ cl → InDispRange dCol d → s.left.img.col0 ≤ max 0 (x + d) ∧ min (W : Int) (x + d + 1) ≤ s.left.img.col0 + s.left.img.w := by
    cases hR : s.roi with
    | none =>
      rw [hR] at l3 l4 i2
      obtain ⟨q1, q2, q3, q4, q5, q6, q7, q8⟩ := i2
      rw [f1, Except.ok.injEq] at l3
      rw [f2, Except.ok.injEq] at l4
      refine ⟨⟨q1.ge, q2.ge⟩, ?_, ?_, ⟨by omega, by omega, by omega, by omega⟩, fun x d _ _ _ => ⟨by omega, by omega⟩,
        fun x d _ _ _ => ⟨by omega, by omega⟩⟩
      · rw [q1, q2, ← l3]; exact CropOf.self full
      · rw [q1, q2, ← l4]; exact CropOf.self fullR
    | some R =>
      rw [hR] at l3 l4 i2
      obtain ⟨q1, q2, q3, q4, q5⟩ := i2
      obtain ⟨R0, -, q6⟩ := s.region hR j1 j2
      have kR : CropOk s.right.img R H W := hdisk.crop _ _ _ l4 q1.rows q1.cols q1.margins
      have hcl := hcrop _ _ _ _ f1 l3 q1
      have hcr := hcrop _ _ _ _ f2 l4 kR
      rw [show s.right.img.row0 = s.left.img.row0 by rw [kR.row0, q1.row0], show s.right.img.col0 = s.left.img.col0 by rw [kR.col0, q1.col0]] at hcr
      obtain ⟨⟨t1, t2, t3, t4, -⟩, -, c1, c2⟩ := C18_margins_cover_disparities R0 dCol dRow R R q6
      have z1 := q1.row0
      have z2 := q1.col0
      have z3 := q1.row1
      have z4 := q1.col1
      have z5 := q1.margins
      have z6 := q1.rows
      have z7 := q1.cols
      refine ⟨⟨by omega, by omega⟩, hcl, hcr, ⟨by omega, by omega, by omega, by omega⟩, fun x d y1 y2 y3 => ?_, fun x d y1 y2 y3 => ?_⟩
      · have := c2 x d (by omega) (by omega) y3
        omega
      · have := c1 x d (by omega) (by omega) y3
        omega
  obtain ⟨p1, hcl, hcr, hzone, near, near'⟩ := part
  refine ⟨h1, fun f hf => ⟨(iz f hf).rows, (iz f hf).cols⟩, fun i hi j hj r c er ec hin => ?_⟩
  obtain ⟨⟨a, b, ha, hb, ea, eb⟩, r0, c0, hbest, -, -, hpix, -⟩ := i6 i hi j hj r c er ec
  have ta : (r - s.left.img.row0).toNat = a := by omega
  have tb : (c - s.left.img.col0).toNat = b := by omega
  have ta' : r.toNat = a + s.left.img.row0.toNat := by omega
  have tb' : c.toNat = b + s.left.img.col0.toNat := by omega
  rw [hzoom, ta, tb] at hbest
  obtain ⟨⟨x1, x2⟩, x3, x4⟩ := hin
  have range : InDispRange dRow (initAt dRow r c - dRow.range) ∧ InDispRange dRow (initAt dRow r c + dRow.range) ∧
      InDispRange dCol (initAt dCol r c - dCol.range) ∧ InDispRange dCol (initAt dCol r c + dCol.range) := by
    have d1 := (asked_range_at icov.1 (r := r) (c := c) (by omega) (by omega)
      (x := ((initAt dRow r c - dRow.range : Int) : K)) ⟨le_rfl, Int.cast_le.2 (by omega)⟩).1
    have d2 := (asked_range_at icov.2 (r := r) (c := c) (by omega) (by omega)
      (x := ((initAt dCol r c - dCol.range : Int) : K)) ⟨le_rfl, Int.cast_le.2 (by omega)⟩).1
    have d3 := (asked_range_at icov.1 (r := r) (c := c) (by omega) (by omega)
      (x := ((initAt dRow r c + dRow.range : Int) : K)) ⟨Int.cast_le.2 (by omega), le_rfl⟩).1
    have d4 := (asked_range_at icov.2 (r := r) (c := c) (by omega) (by omega)
      (x := ((initAt dCol r c + dCol.range : Int) : K)) ⟨Int.cast_le.2 (by omega), le_rfl⟩).1
    rw [Int.floor_intCast] at d1 d2 d3 d4
    exact ⟨d1, d3, d2, d4⟩
  obtain ⟨d1, d2, d3, d4⟩ := range
  refine ⟨r0, c0, best_congr (fun x y hxy => ?_) hbest, fun inn => ?_⟩
  · obtain ⟨⟨kx, ky, hx, hy⟩, ⟨u1, u2⟩, u3, u4⟩ := hxy
    have hg0 := i4 a ha b hb
    have hg1 := i5 a ha b hb
    rw [← ea, ← eb] at hg0 hg1
    have hw0 : ∀ k : Int, (wholeGrid dCol k H W).get (a + s.left.img.row0.toNat) (b + s.left.img.col0.toNat) = initAt dCol r c + k := by
      intro k
      simp only [wholeGrid]
      rw [← ta', ← tb', Int.toNat_of_nonneg (by omega), Int.toNat_of_nonneg (by omega)]
    have hgs : gmin.get a b = (wholeGrid dCol (-dCol.range - ml) H W).get (a + s.left.img.row0.toNat) (b + s.left.img.col0.toNat) ∧
        gmax.get a b = (wholeGrid dCol (dCol.range + mr) H W).get (a + s.left.img.row0.toNat) (b + s.left.img.col0.toNat) := by
      rw [hw0, hw0, hg0, hg1]
      exact ⟨rfl, rfl⟩
    have wide : Pandora.windowCost hw ker full (slabImg zoomLinear fullR n x) (wholeGrid dCol (-dCol.range - ml) H W)
        (wholeGrid dCol (dCol.range + mr) H W) (a + s.left.img.row0.toNat) (b + s.left.img.col0.toNat) y =
        Pandora.windowCost hw ker full (slabImg zoomLinear fullR n x) (wholeGrid dCol (-dCol.range) H W)
        (wholeGrid dCol dCol.range H W) (a + s.left.img.row0.toNat) (b + s.left.img.col0.toNat) y := by
      refine window_grids ?_ ?_
      · rw [hw0, hw0]
        exact ⟨le_trans (Int.cast_le.2 (by omega)) u3, le_trans u4 (Int.cast_le.2 (by omega))⟩
      · rw [hw0, hw0]
        exact ⟨le_trans (Int.cast_le.2 (by omega)) u3, le_trans u4 (Int.cast_le.2 (by omega))⟩
    rw [ta', tb', ← wide]
    by_cases hf : FitsIn hw s.left.img s.right.img a b x y
    · exact (crop_cost hcl hcr hn ⟨kx, hx⟩ hnd hgs).1 hf
    · rw [(crop_cost hcl hcr hn ⟨kx, hx⟩ hnd hgs).2 hf]
      by_contra hne'
      have b0 := cost_fits hn ⟨kx, hx⟩ hnd (by rw [w3, w3']) (by rw [w4, w4']) ⟨w1, w2⟩ (Ne.symm hne')
      rw [show ((a + s.left.img.row0.toNat : Nat) : Int) = r by omega, show ((b + s.left.img.col0.toNat : Nat) : Int) = c by omega] at b0
      obtain ⟨⟨b1, b2, b3, b4⟩, b5, b6, b7, b8⟩ := b0
      have v1 : initAt dRow r c - dRow.range ≤ ⌊x⌋ := Int.le_floor.2 u1
      have v2 : ⌈x⌉ ≤ initAt dRow r c + dRow.range := Int.ceil_le.2 u2
      have v3 : initAt dCol r c - dCol.range ≤ ⌊y⌋ := Int.le_floor.2 u3
      have v4 : ⌈y⌉ ≤ initAt dCol r c + dCol.range := Int.ceil_le.2 u4
      have m1 := (near (r - hw) _ (by omega) (by omega) d1).1
      have m2 := (near (r + hw) _ (by omega) (by omega) d2).2
      have m3 := (near' (c - hw) _ (by omega) (by omega) d3).1
      have m4 := (near' (c + hw) _ (by omega) (by omega) d4).2
      rw [fitsIn_zone i3.1 i3.2 ea eb] at hf
      refine hf ⟨⟨?_, ?_, ?_, ?_⟩, ?_, ?_, ?_, ?_⟩ <;> omega
  · obtain ⟨⟨⟨k1, n1, n2⟩, k2, n3, n4⟩, ⟨k3, n5, n6⟩, k4, n7, n8⟩ := inn
    have e1 : ((k1 * s.plan.cfg.stepRow : Nat) : Int) = (k1 : Int) * s.plan.cfg.stepRow := by push_cast; rfl
    have e2 : ((k2 * s.plan.cfg.stepRow : Nat) : Int) = (k2 : Int) * s.plan.cfg.stepRow := by push_cast; rfl
    have e3 : ((k3 * s.plan.cfg.stepCol : Nat) : Int) = (k3 : Int) * s.plan.cfg.stepCol := by push_cast; rfl
    have e4 : ((k4 * s.plan.cfg.stepCol : Nat) : Int) = (k4 : Int) * s.plan.cfg.stepCol := by push_cast; rfl
    have o1 := hcr.row0
    have o2 := hcr.col0
    refine ⟨hpix ⟨⟨⟨k1, n1, by omega⟩, k2, n3, by omega⟩, ⟨k3, n5, by omega⟩, k4, n7, by omega⟩, ?_, fun x y u1 u2 u3 u4 => ?_⟩
    · refine windowOf_crop hcl ?_
      unfold Spec.WindowFits
      omega
    · refine rightWindow_crop hcr fun ⟨q1, q2, q3, q4⟩ => ?_
      have r1 : rf + half ≤ r ∧ r + half ≤ rl := by omega
      have r2 : cf + half ≤ c ∧ c + half ≤ cl := by omega
      have m1 := (near (r - half) _ (by omega) (by omega) d1).1
      have m2 := (near (r + half) _ (by omega) (by omega) d2).2
      have m3 := (near' (c - half) _ (by omega) (by omega) d3).1
      have m4 := (near' (c + half) _ (by omega) (by omega) d4).2
      have s1 := i3.1
      have s2 := i3.2
      rw [w1'] at q1 q2 o1
      rw [w2'] at q3 q4 o2
      rw [w3'] at q2
      rw [w4'] at q4
      have o3 : s.right.img.row0 = s.left.img.row0 := by rw [o1, zero_add, Int.toNat_of_nonneg p1.1]
      have o4 : s.right.img.col0 = s.left.img.col0 := by rw [o2, zero_add, Int.toNat_of_nonneg p1.2]
      unfold Spec.WindowFits
      rw [o3, o4, s1, s2]
      exact fits_near hzone r1 r2 m1 m2 m3 m4 u1 u2 u3 u4 q1 q2 q3 q4

end

/-- C136 (partial): two executions with an optical flow on two zones of the same images, regions of interest or the full images, give the same values
at the pixels they share, without estimation, with the same subpixel factor, window cost, intervals, invalid value, iterations and half window, whatever
the two steps, with a resampling which only depends on the values of the window. Proved for the scores of the pixels whose window is inside both zones
and, when they have points of both zones on each side at least half a window away, for their refined disparities. Missing: the pixels nearer to the
border of one of the zones (`C136_false`). -/
theorem C136_zones_agree_flow_partial (w : World K) (user user' p p' mc mc' inp inp' l r f f' : Fields) (out out' : List (Written K))
    (H W : Nat) (dRow dCol : Disp) (rf rl cf cl rf' rl' cf' cl' : Int) (sr sc sr' sc' : Nat) (invalid : F K) (n hw : Nat) (me : Measure)
    (ker : List (F K × F K) → F K) (it half : Nat) (wf : user.wf) (wf' : user'.wf)
    (hdisk : DiskContract w H W) (hcrop : CropsWhole w H W) (hwhole : WholeReadable w) (hpan : PandoraContract w)
    (hkeeps : PandoraKeeps w.pandora) (hoff : OffsetContract w) (hzoom : w.run.zoom = zoomLinear)
    (cfg : FlowedZone w user p mc inp l r f H W dRow dCol rf rl cf cl sr sc invalid n hw me ker it half)
    (cfg' : FlowedZone w user' p' mc' inp' l r f' H W dRow dCol rf' rl' cf' cl' sr' sc' invalid n hw me ker it half)
    (hsz : KeepsSize w.run.flow) (hres : ResamplesThrough w.run.flow id)
    (hl : rl < H ∧ cl < W) (hl' : rl' < H ∧ cl' < W)
    (h : Main.main w user = (out, none)) (h' : Main.main w user' = (out', none)) :
    ∃ (files : Files K (F K)) (rest : List (Written K)) (files' : Files K (F K)) (rest' : List (Written K)) (full fullR : Img K),
      out = .rasters files :: rest ∧ out' = .rasters files' :: rest' ∧ ImagesRead w l r none full fullR ∧
      (fullR.noData ≠ .nan →
        (∀ f ∈ [files.row, files.col, files.score],
          (∀ i : Nat, i < f.h ↔ rf + (i : Int) * sr ≤ rl) ∧ ∀ j : Nat, j < f.w ↔ cf + (j : Int) * sc ≤ cl) ∧
        (∀ f ∈ [files'.row, files'.col, files'.score],
          (∀ i : Nat, i < f.h ↔ rf' + (i : Int) * sr' ≤ rl') ∧ ∀ j : Nat, j < f.w ↔ cf' + (j : Int) * sc' ≤ cl') ∧
        ∀ i j i' j', i < files.row.h → j < files.row.w → i' < files'.row.h → j' < files'.row.w → ∀ x y : Int,
        x = rf + (i : Int) * sr → x = rf' + (i' : Int) * sr' → y = cf + (j : Int) * sc → y = cf' + (j' : Int) * sc' →
        InsideRegion hw rf rl cf cl x y → InsideRegion hw rf' rl' cf' cl' x y →
        files'.score.values i' j' = files.score.values i j ∧
          (InnerOfZone rf rl cf cl sr sc half x y → InnerOfZone rf' rl' cf' cl' sr' sc' half x y →
            files'.row.values i' j' = files.row.values i j ∧ files'.col.values i' j' = files.col.values i j)) := by
  obtain ⟨s⟩ := flowZone_stages cfg wf hpan h
  obtain ⟨s'⟩ := flowZone_stages cfg' wf' hpan h'
  obtain ⟨-, -, lj, rj, l1, l2, l3, l4⟩ := created_input s.datasets
  have hfull : ∀ {v : J} {img : Img K}, w.files.read v s.roi = .ok img → ∃ full, w.files.read v none = .ok full := by
    intro v img hv
    cases hR : s.roi with
    | none => exact ⟨img, by rw [← hv, hR]⟩
    | some R =>
      rw [hR] at hv
      exact hwhole _ _ _ hv
  obtain ⟨full, f1⟩ := hfull l3
  obtain ⟨fullR, f2⟩ := hfull l4
  have l1' := l1
  have l2' := l2
  rw [s.same_side s' wf wf' cfg.noEstimation cfg'.noEstimation cfg.input cfg'.input cfg.left cfg'.left] at l1'
  rw [s.same_side s' wf wf' cfg.noEstimation cfg'.noEstimation cfg.input cfg'.input cfg.right cfg'.right] at l2'
  refine ⟨s.files, _, s'.files, _, full, fullR, s.outIs, s'.outIs, ?_, fun hnd => ?_⟩
  · obtain ⟨lj', rj', g1, g2, g3, g4⟩ := s.sections wf cfg.input cfg.left cfg.right
    rw [l1, Option.some.injEq] at g1
    rw [l2, Option.some.injEq] at g2
    subst g1 g2
    exact ⟨lj', rj', g3, g4, f1, f2⟩
  · obtain ⟨hh, z, key⟩ := s.flowZone cfg wf hdisk hcrop hkeeps hoff hzoom hl l1 l2 f1 f2 hnd
    obtain ⟨-, z', key'⟩ := s'.flowZone cfg' wf' hdisk hcrop hkeeps hoff hzoom hl' l1' l2' f1 f2 hnd
    refine ⟨z, z', fun i j i' j' hi hj hi' hj' x y e1 e2 e3 e4 n1 n2 => ?_⟩
    obtain ⟨r0, c0, b1, p1⟩ := key i hi j hj x y e1 e3 n1
    obtain ⟨r1, c1, b2, p2⟩ := key' i' hi' j' hj' x y e2 e4 n2
    obtain ⟨rfl, rfl, hsc⟩ := BestPair.unique b2 b1
    refine ⟨hsc, fun m1 m2 => ?_⟩
    obtain ⟨q1, q2, q3⟩ := p1 m1
    obtain ⟨q1', q2', q3'⟩ := p2 m2
    exact flowPixel_seen hh hsz hres (fun a b a' b' v1 v2 v3 v4 => lucasKanade_local v1 v2 v3 v4) (windowSeen_parts q2 q2')
      (fun a b h1 h2 => by
        obtain ⟨⟨t1, t2⟩, t3, t4⟩ := startShift_in b1 h1 h2
        exact windowSeen_parts (q3 a b t1 t2 t3 t4) (q3' a b t1 t2 t3 t4)) q1 q1'

/-! ## Examples -/

/-- Images of six rows and six columns; the margins are those of windows of three pixels. -/
def exWorldSixF : World ℚ := { exWorldSix 1 with globalMargins := fun _ _ => ⟨1, 1, 1, 1⟩ }

/-- Windows of three pixels compared by `sad`, on images given by their values. -/
noncomputable def exWorldBoxF (fl fr : Nat → Nat → F ℚ) : World ℚ :=
  { exWorldBox 1 fl fr with
    globalMargins := fun _ _ => ⟨1, 1, 1, 1⟩
    run := { (exWorldBox 1 fl fr).run with flow := exExt } }

theorem exWorldBoxF_contract (fl fr : Nat → Nat → F ℚ) : RunContract (exWorldBoxF fl fr) 6 6 := by
  obtain ⟨d, p, k, r, a, o, i, s⟩ := exWorldBox_contract 1 fl fr
  exact ⟨⟨d.pos, d.grids, d.size, d.whole, d.crop⟩, ⟨p.1, p.2⟩, k, r, fun _ _ _ _ => rfl, o, i, s⟩

/-- The rows `0` to `b` with an optical flow. -/
def exUserFlowBox (i k b : Int) : Fields := dict [("input", .obj (exInputBox i k)),
  ("ROI", .obj (dict [("row", .obj (dict [("first", .int 0), ("last", .int b)])), ("col", .obj (dict [("first", .int 0), ("last", .int 5)]))])),
  ("pipeline", .obj (exPipeline none 1 1 (some exFlow)))]

/-- The full images with an optical flow. -/
def exUserFlowFull (i k : Int) : Fields := dict [("input", .obj (exInputBox i k)), ("pipeline", .obj (exPipeline none 1 1 (some exFlow)))]

theorem exUserFlowBox_wf (i k b : Int) : (exUserFlowBox i k b).wf := by
  simp [exUserFlowBox, exInputBox, exL, exR, exPipeline, exFlow, dict, Fields.append, Fields.wf, J.wf, Fields.keys]

theorem exUserFlowFull_wf (i k : Int) : (exUserFlowFull i k).wf := by
  simp [exUserFlowFull, exInputBox, exL, exR, exPipeline, exFlow, dict, Fields.append, Fields.wf, J.wf, Fields.keys]

theorem exUserFlowBox_zone (i k b : Int) : ZoneIs (exUserFlowBox i k b) 6 6 0 b 0 5 :=
  .inl ⟨_, rfl, _, _, _, _, _, _, _, rfl, rfl, rfl, rfl, rfl, rfl, rfl, .inl rfl, .inl rfl, .inl rfl, .inl rfl⟩

theorem exUserFlowBox_cfg (fl fr : Nat → Nat → F ℚ) (i k b : Int) :
    ∃ p mc inp f, FlowedZone (exWorldBoxF fl fr) (exUserFlowBox i k b) p mc inp exL exR f 6 6 ⟨.const i, k⟩ ⟨.const 0, k⟩ 0 b 0 5 1 1 .nan 1 1
      .min sad 1 1 :=
  ⟨_, _, _, _, rfl, rfl, rfl, rfl, rfl, rfl, rfl, .inl ⟨_, rfl, .inl rfl⟩, rfl, ⟨_, _, _, _, rfl, .inl rfl⟩,
    ⟨_, _, _, _, _, .int 1, rfl, rfl, rfl, .inl rfl, rfl, rfl⟩,
    ⟨⟨_, rfl, ⟨_, _, _, rfl, rfl, rfl, .inl rfl, .inl ⟨_, .inl rfl, rfl⟩⟩, ⟨_, _, _, rfl, rfl, rfl, .inl rfl, .inl ⟨_, .inl rfl, rfl⟩⟩⟩,
    exUserFlowBox_zone _ _ _,
    ⟨_, _, _, rfl, rfl, rfl, .inl ⟨_, _, rfl, .inl rfl, .inl rfl⟩, .inl ⟨_, rfl, .inr (.inr (.inl ⟨rfl, rfl⟩))⟩⟩⟩⟩

theorem exUserFlowFull_cfg (fl fr : Nat → Nat → F ℚ) (i k : Int) :
    ∃ p mc inp f, FlowedZone (exWorldBoxF fl fr) (exUserFlowFull i k) p mc inp exL exR f 6 6 ⟨.const i, k⟩ ⟨.const 0, k⟩ 0 5 0 5 1 1 .nan 1 1
      .min sad 1 1 :=
  ⟨_, _, _, _, rfl, rfl, rfl, rfl, rfl, rfl, rfl, .inl ⟨_, rfl, .inl rfl⟩, rfl, ⟨_, _, _, _, rfl, .inl rfl⟩,
    ⟨_, _, _, _, _, .int 1, rfl, rfl, rfl, .inl rfl, rfl, rfl⟩,
    ⟨⟨_, rfl, ⟨_, _, _, rfl, rfl, rfl, .inl rfl, .inl ⟨_, .inl rfl, rfl⟩⟩, ⟨_, _, _, rfl, rfl, rfl, .inl rfl, .inl ⟨_, .inl rfl, rfl⟩⟩⟩,
    .inr ⟨rfl, rfl, rfl, rfl, rfl⟩,
    ⟨_, _, _, rfl, rfl, rfl, .inl ⟨_, _, rfl, .inl rfl, .inl rfl⟩, .inl ⟨_, rfl, .inr (.inr (.inl ⟨rfl, rfl⟩))⟩⟩⟩⟩

theorem exFlowZone_runs {user : Fields} {b : Int} {mc : Fields} (fl fr : Nat → Nat → F ℚ) (wf : user.wf) (hb : 2 ≤ b ∧ b < 6)
    (hu : user.get "pipeline" = some (.obj (exPipeline none 1 1 (some exFlow)))) (hz : ZoneIs user 6 6 0 b 0 5)
    (hm : (exPipeline none 1 1 (some exFlow)).get "matching_cost" = some (.obj mc)) (hst : StepIs mc 1 1)
    (hp : ∀ c st wn mar, matchingCostCheck (exWorldBoxF fl fr).pandora (J.obj mc).convAll = .ok (c, st, wn, mar) → wn = .int 3)
    (hacc : accepted exWorldSixF user = true) :
    Main.main (exWorldBoxF fl fr) user = ((Main.main (exWorldBoxF fl fr) user).1, none) := by
  have : (Main.main (exWorldBoxF fl fr) user).2 = none := by
    obtain ⟨m, cfg, h⟩ := accepted_ok hacc
    refine C81_accepted_runs_partial (exWorldBoxF fl fr) _ _ _ cfg m 6 6 0 b 0 5 1 1 wf (exWorldBoxF_contract fl fr) hu (by decide) hm hst hz (by omega)
      ?_ ?_ (.inl ⟨rfl, rfl⟩) h
    · intro he
      exact absurd rfl he
    · intro v hv
      have : v = exFlow := (Option.some.inj hv).symm
      subst this
      refine ⟨_, rfl, .inr (.inr ⟨rfl, .inr ⟨rfl, rfl⟩, ?_⟩)⟩
      intro c st wn mar half hc hi
      obtain rfl := hp _ _ _ _ hc
      have : half = 1 := by
        rcases hi with hi | ⟨-, ⟨hi, -⟩ | ⟨hi, -⟩⟩
        · simp only [J.int.injEq] at hi; omega
        · simp at hi
        · simp at hi
      subst this
      exact ⟨⟨1, 2, by omega⟩, ⟨1, 2, by decide⟩⟩
  exact Prod.ext rfl this

theorem exUserFlowBox_runs (fl fr : Nat → Nat → F ℚ) (i k b : Int) (hb : 2 ≤ b ∧ b < 6) (hacc : accepted exWorldSixF (exUserFlowBox i k b) = true) :
    Main.main (exWorldBoxF fl fr) (exUserFlowBox i k b) = ((Main.main (exWorldBoxF fl fr) (exUserFlowBox i k b)).1, none) :=
  exFlowZone_runs fl fr (exUserFlowBox_wf i k b) hb rfl (exUserFlowBox_zone i k b) rfl (.inl ⟨_, _, rfl, .inl rfl, .inl rfl⟩)
    (fun _ _ _ _ h => mc_window (fun _ => rfl) h) hacc

theorem exUserFlowFull_runs (fl fr : Nat → Nat → F ℚ) (i k : Int) (hacc : accepted exWorldSixF (exUserFlowFull i k) = true) :
    Main.main (exWorldBoxF fl fr) (exUserFlowFull i k) = ((Main.main (exWorldBoxF fl fr) (exUserFlowFull i k)).1, none) :=
  exFlowZone_runs (b := 5) fl fr (exUserFlowFull_wf i k) (by decide) rfl (.inr ⟨rfl, rfl, rfl, rfl, rfl⟩) rfl (.inl ⟨_, _, rfl, .inl rfl, .inl rfl⟩)
    (fun _ _ _ _ h => mc_window (fun _ => rfl) h) hacc

/-- The rows 0 to 4 against the full images: the pixels of the rows 1 to 3 and of the columns 1 to 4 are refined alike. -/
example (fl fr : Nat → Nat → F ℚ) : ∃ files rest files' rest',
    Main.main (exWorldBoxF fl fr) (exUserFlowBox 0 1 4) = (.rasters files :: rest, none) ∧
    Main.main (exWorldBoxF fl fr) (exUserFlowFull 0 1) = (.rasters files' :: rest', none) ∧
    ∀ i j : Nat, 1 ≤ i → i ≤ 3 → 1 ≤ j → j ≤ 4 → files'.row.values i j = files.row.values i j ∧ files'.col.values i j = files.col.values i j ∧
      files'.score.values i j = files.score.values i j := by
  obtain ⟨_, _, _, _, cfg⟩ := exUserFlowBox_cfg fl fr 0 1 4
  obtain ⟨_, _, _, _, cfg'⟩ := exUserFlowFull_cfg fl fr 0 1
  have ct := exWorldBoxF_contract fl fr
  have h1 := exUserFlowBox_runs fl fr 0 1 4 (by decide) (by decide +kernel)
  have h2 := exUserFlowFull_runs fl fr 0 1 (by decide +kernel)
  obtain ⟨files, rest, files', rest', full, fullR, o, o', im, key⟩ := C136_zones_agree_flow_partial
    (exWorldBoxF fl fr) _ _ _ _ _ _ _ _ _ _ _ _ _ _ 6 6 _ _ _ _ _ _ _ _ _ _ _ _ _ _ _ _ _ _ _ _ _ (exUserFlowBox_wf 0 1 4) (exUserFlowFull_wf 0 1) ct.disk
    (exWorldBox_crops 1 fl fr) (exWorldBox_whole 1 fl fr) ct.pandora ct.keeps ct.offset rfl cfg cfg' (fun _ _ _ => ⟨rfl, rfl⟩) (fun _ _ _ _ h => h)
    (by decide) (by decide) h1 h2
  obtain ⟨rfl, rfl⟩ := exWorldBox_images 1 _ _ _ _ im
  refine ⟨files, rest, files', rest', by rw [h1]; exact congrArg (·, none) o, by rw [h2]; exact congrArg (·, none) o', fun i j i1 i2 j1 j2 => ?_⟩
  obtain ⟨z, z', key⟩ := key (by simp [exImgSix, exLeftImg])
  obtain ⟨y1, y2⟩ := z _ List.mem_cons_self
  obtain ⟨y3, y4⟩ := z' _ List.mem_cons_self
  obtain ⟨v1, v2⟩ := key i j i j ((y1 i).2 (by push_cast; omega)) ((y2 j).2 (by push_cast; omega)) ((y3 i).2 (by push_cast; omega))
    ((y4 j).2 (by push_cast; omega)) i j (by push_cast; omega) (by push_cast; omega) (by push_cast; omega) (by push_cast; omega)
    (by simp only [InsideRegion]; omega) (by simp only [InsideRegion]; omega)
  obtain ⟨v3, v4⟩ := v2 ⟨⟨⟨1, by decide, by push_cast; omega⟩, 1, by decide, by push_cast; omega⟩, ⟨1, by decide, by push_cast; omega⟩, 1, by decide,
      by push_cast; omega⟩
    ⟨⟨⟨1, by decide, by push_cast; omega⟩, 1, by decide, by push_cast; omega⟩, ⟨1, by decide, by push_cast; omega⟩, 1, by decide, by push_cast; omega⟩
  exact ⟨v3, v4, v1⟩

/-! ### Counterexample -/

/-- The full statement of C136: the two executions give the same values at every pixel they share. -/
def C136Statement : Prop :=
  ∀ (w : World ℚ) (user user' p p' mc mc' inp inp' l r f f' : Fields) (out out' : List (Written ℚ))
    (H W : Nat) (dRow dCol : Disp) (rf rl cf cl rf' rl' cf' cl' : Int) (sr sc sr' sc' : Nat) (invalid : F ℚ) (n hw : Nat) (me : Measure)
    (ker : List (F ℚ × F ℚ) → F ℚ) (it half : Nat), user.wf → user'.wf → DiskContract w H W → CropsWhole w H W → WholeReadable w →
    PandoraContract w → PandoraKeeps w.pandora → OffsetContract w → w.run.zoom = zoomLinear →
    FlowedZone w user p mc inp l r f H W dRow dCol rf rl cf cl sr sc invalid n hw me ker it half →
    FlowedZone w user' p' mc' inp' l r f' H W dRow dCol rf' rl' cf' cl' sr' sc' invalid n hw me ker it half →
    KeepsSize w.run.flow → ResamplesThrough w.run.flow id → rl < H ∧ cl < W → rl' < H ∧ cl' < W →
    Main.main w user = (out, none) → Main.main w user' = (out', none) →
    ∃ (files : Files ℚ (F ℚ)) (rest : List (Written ℚ)) (files' : Files ℚ (F ℚ)) (rest' : List (Written ℚ)) (full fullR : Img ℚ),
      out = .rasters files :: rest ∧ out' = .rasters files' :: rest' ∧ ImagesRead w l r none full fullR ∧
      (fullR.noData ≠ .nan → ∀ i j i' j', i < files.row.h → j < files.row.w → i' < files'.row.h → j' < files'.row.w →
        rf + (i : Int) * sr = rf' + (i' : Int) * sr' → cf + (j : Int) * sc = cf' + (j' : Int) * sc' →
        files'.row.values i' j' = files.row.values i j ∧ files'.col.values i' j' = files.col.values i j ∧
          files'.score.values i' j' = files.score.values i j)

theorem exBoxF_read (fl fr : Nat → Nat → F ℚ) (roi : Option Roi) (left right : Img ℚ)
    (h : ImagesRead (exWorldBoxF fl fr) exL exR roi left right) : ImagesRead (exWorldBox 1 fl fr) exL exR roi left right := h

/-- The score of the pixel of row 2 and column 1 of an execution with displacements of two rows. -/
theorem exBoxF_pixel {user p mc inp f : Fields} {out : List (Written ℚ)} {rl : Int} {fl : Nat → Nat → F ℚ} (hfl : ∀ x y, fl x y = .fin 0)
    (wf : user.wf) (cfg : FlowedZone (exWorldBoxF fl fl) user p mc inp exL exR f 6 6 ⟨.const 2, 0⟩ ⟨.const 0, 0⟩ 0 rl 0 5 1 1 .nan 1 1
      .min sad 1 1) (hrl : rl = 2 ∨ rl = 5) (h : Main.main (exWorldBoxF fl fl) user = (out, none)) :
    ∃ files rest, out = .rasters files :: rest ∧ (2 < files.row.h ∧ 1 < files.row.w) ∧
      (rl = 2 → user.get "ROI" ≠ none → files.score.values 2 1 = .nan) ∧ (rl = 5 → user.get "ROI" = none → files.score.values 2 1 ≠ .nan) := by
  have ct := exWorldBoxF_contract fl fl
  obtain ⟨s⟩ := flowZone_stages cfg wf ct.pandora h
  obtain ⟨hn, dRow1, dCol1, half', it', ml, mr, gmin, gmax, h1, k0, k1, -, i1, i2, i3, iz, i4, i5, i6⟩ :=
    s.flowWinner ct.disk ct.keeps ct.offset wf cfg.pipeline cfg.asks.zone (by omega) cfg.refinement cfg.method cfg.cost cfg.matcher
  obtain ⟨j1, j2⟩ := i1 cfg.noEstimation
  obtain ⟨⟨rfl, rfl⟩, ⟨hs1, hs2⟩, hinv⟩ := s.asked wf cfg.pipeline cfg.noEstimation cfg.asks j1 j2
  rw [← hinv, ← hs1, ← hs2] at i6
  rw [← hs1, ← hs2] at iz
  obtain ⟨⟨m1, m2, m3⟩, m4, m5⟩ := exBox_read _ _ _ _ _ _ (exBoxF_read _ _ _ _ _ (s.images wf cfg.input cfg.left cfg.right))
  have y1 := (iz _ List.mem_cons_self).rows
  have y2 := (iz _ List.mem_cons_self).cols
  have z1 : 2 < s.files.row.h := (y1 2).2 (by push_cast; omega)
  have z2 : 1 < s.files.row.w := (y2 1).2 (by norm_num)
  obtain ⟨⟨a, b, ha, hb, ea, eb⟩, r0, c0, hb', -⟩ := i6 2 z1 1 z2 2 1 (by norm_num) (by norm_num)
  have hzoom : (exWorldBoxF fl fl).run.zoom = zoomLinear := rfl
  have ta : ((2 : Int) - s.left.img.row0).toNat = a := by omega
  have tb : ((1 : Int) - s.left.img.col0).toNat = b := by omega
  rw [hzoom, ta, tb] at hb'
  have g1 := i4 a ha b hb
  have g2 := i5 a ha b hb
  simp only [initAt] at g1 g2
  have hfin : FiniteKernel (sad : List (F ℚ × F ℚ) → F ℚ) := sumOf_finite _
  have hdata : FiniteData s.left.img := fun x _ y _ _ => ⟨_, m4 hfl x y⟩
  have only : ∀ x y : ℚ, AskedPair ⟨.const 2, 0⟩ ⟨.const 0, 0⟩ 1 2 1 x y ↔ x = 2 ∧ y = 0 := by
    intro x y
    unfold AskedPair
    simp only [initAt, sub_zero, add_zero, Int.cast_ofNat, Int.cast_zero]
    constructor
    · rintro ⟨-, ⟨q1, q2⟩, q3, q4⟩
      exact ⟨le_antisymm q2 q1, le_antisymm q4 q3⟩
    · rintro ⟨rfl, rfl⟩
      exact ⟨⟨2, 0, by norm_num, by norm_num⟩, ⟨le_rfl, le_rfl⟩, le_rfl, le_rfl⟩
  have hcost : Pandora.windowCost 1 sad s.left.img (slabImg zoomLinear s.right.img 1 2) gmin gmax a b 0 ≠ .nan ↔
      Comparable 1 s.left.img s.right.img a b 2 0 := by
    rw [← window_exists (ker := sad) (gmin := gmin) (gmax := gmax) hfin (by rw [m3]; simp) hdata
      (fun x _ y _ _ => ⟨_, m5 hfl x y⟩) (by omega)]
    have := slab_int (K := ℚ) zoomLinear s.right.img 1 2
    norm_num at this ⊢
    rw [this]
  refine ⟨s.files, _, s.outIs, ⟨z1, z2⟩, fun e hroi => ?_, fun e hroi => ?_⟩
  · subst e
    cases hR : s.roi with
    | none => exact absurd ((roiFor_none s.roiFor).1 hR) hroi
    | some R =>
      rw [hR] at i2
      obtain ⟨q1, q2, q3, q4, q5⟩ := i2
      obtain ⟨R0, q6, q7⟩ := s.region hR j1 j2
      have hno : ∀ x y, AskedPair ⟨.const 2, 0⟩ ⟨.const 0, 0⟩ 1 2 1 x y →
          Pandora.windowCost 1 sad s.left.img (slabImg zoomLinear s.right.img 1 x) gmin gmax a b y = .nan := by
        intro x y hxy
        obtain ⟨rfl, rfl⟩ := (only x y).1 hxy
        by_contra hne
        have := (hcost.1 hne).inside
        simp only [getRoiProcessing, dispBounds, q6, Except.ok.injEq, Prod.mk.injEq] at q7
        have hd : R.margins.down = 2 := by rw [← q7.1]; rfl
        have hd' : R.margins.up = 2 := by rw [← q7.1]; rfl
        have := q1.row1
        have := q1.row0
        simp only [BothInside] at *
        omega
      obtain ⟨-, -, v3⟩ := hb'.invalid hno
      exact v3
  · have hR := (roiFor_none s.roiFor).2 hroi
    rw [hR] at i2
    obtain ⟨q1, q2, q3, q4, -⟩ := i2
    have hy : Pandora.windowCost 1 sad s.left.img (slabImg zoomLinear s.right.img 1 2) gmin gmax a b 0 ≠ .nan := by
      refine hcost.2 ⟨?_, fun x y _ _ _ _ => by simp [Pandora.noDataAt, m1], by simp [Pandora.invalidAt, m1], fun x y _ _ _ _ => by rw [m5 hfl, m3]; simp⟩
      simp only [BothInside]
      omega
    exact (hb'.best ⟨2, 0, (only 2 0).2 ⟨rfl, rfl⟩, hy⟩).1.1

/-- The full statement is false: with windows of three pixels and a displacement of two rows, the displaced window of the row 2 is not in what is
read for the region of the rows 0 to 2, and the pixel has no score. In the full images it has one. -/
theorem C136_false : ¬ C136Statement := by
  intro hst
  obtain ⟨p, mc, inp, f, cfg⟩ := exUserFlowBox_cfg (fun _ _ => .fin 0) (fun _ _ => .fin 0) 2 0 2
  obtain ⟨p', mc', inp', f', cfg'⟩ := exUserFlowFull_cfg (fun _ _ => .fin 0) (fun _ _ => .fin 0) 2 0
  have ct := exWorldBoxF_contract (fun _ _ => .fin 0) (fun _ _ => .fin 0)
  have h1 := exUserFlowBox_runs (fun _ _ => .fin 0) (fun _ _ => .fin 0) 2 0 2 (by decide) (by decide +kernel)
  have h2 := exUserFlowFull_runs (fun _ _ => .fin 0) (fun _ _ => .fin 0) 2 0 (by decide +kernel)
  obtain ⟨files, rest, files', rest', full, fullR, o, o', im, key⟩ := hst
    (exWorldBoxF (fun _ _ => .fin 0) (fun _ _ => .fin 0)) _ _ _ _ _ _ _ _ _ _ _ _ _ _ 6 6 _ _ _ _ _ _ _ _ _ _ _ _ _ _ _ _ _ _ _ _ _ (exUserFlowBox_wf 2 0 2)
    (exUserFlowFull_wf 2 0) ct.disk (exWorldBox_crops 1 _ _) (exWorldBox_whole 1 _ _) ct.pandora ct.keeps ct.offset rfl cfg cfg'
    (fun _ _ _ => ⟨rfl, rfl⟩) (fun _ _ _ _ h => h) (by decide) (by decide) h1 h2
  obtain ⟨rfl, rfl⟩ := exWorldBox_images 1 _ _ _ _ im
  obtain ⟨fs, _, w1, ⟨w2, w3⟩, w4, -⟩ := exBoxF_pixel (fun _ _ => rfl) (exUserFlowBox_wf 2 0 2) cfg (.inl rfl) h1
  obtain ⟨fs', _, w1', ⟨w2', w3'⟩, -, w4'⟩ := exBoxF_pixel (fun _ _ => rfl) (exUserFlowFull_wf 2 0) cfg' (.inr rfl) h2
  have e1 := o.symm.trans w1
  have e2 := o'.symm.trans w1'
  simp only [List.cons.injEq, Written.rasters.injEq] at e1 e2
  obtain ⟨rfl, -⟩ := e1
  obtain ⟨rfl, -⟩ := e2
  have v := (key (by simp [exImgSix, exLeftImg]) 2 1 2 1 w2 w3 w2' w3' rfl rfl).2.2
  rw [w4 rfl (by simp [exUserFlowBox, dict, Fields.get])] at v
  exact w4' rfl (by simp [exUserFlowFull, dict, Fields.get]) v

end Verif.Props
