import Verif.Spec.Overlap
import Verif.Props.Mirror

/-!
# C116: overlapping frames, with fractions of pixels
-/

namespace Verif.Props

open Verif Verif.Config Verif.Machine Verif.ImgTools Verif.MatchingCost Verif.Disparity Verif.Run Verif.Main Verif.Spec Verif.Save
  Verif.Statistics

set_option linter.unusedSectionVars false

variable {K : Type} [Field K] [LinearOrder K] [IsStrictOrderedRing K] [FloorRing K]

/-- What a displaced image holds, from the rows below and above the position. -/
theorem displaced_at {D right : Img K} {d : K} (h : Displaced D right d) {x y : Nat} (hx : x < right.h) (hy : y < right.w) :
    D.im x y = if 0 ≤ (x : Int) + ⌊d⌋ ∧ (x : Int) + ⌈d⌉ < right.h then
      (if Int.fract d = 0 then right.im ((x : Int) + ⌊d⌋).toNat y
        else F.add (F.mul (.fin (1 - Int.fract d)) (right.im ((x : Int) + ⌊d⌋).toNat y)) (F.mul (.fin (Int.fract d)) (right.im ((x : Int) + ⌈d⌉).toNat y)))
      else right.noData := by
  obtain ⟨k1, k2⟩ := h.samples x hx y hy
  have hsum := Int.floor_add_fract d
  have f0 := Int.fract_nonneg d
  have f1 := Int.fract_lt_one d
  have hcl : ⌈d⌉ = if Int.fract d = 0 then ⌊d⌋ else ⌊d⌋ + 1 := by
    split_ifs with hz
    · rw [Int.ceil_eq_iff]; constructor <;> linarith
    · have hz' : 0 < Int.fract d := lt_of_le_of_ne f0 (Ne.symm hz)
      rw [Int.ceil_eq_iff]; push_cast; constructor <;> linarith
  have hN : ((right.h - 1 : Nat) : K) = (((right.h : Int) - 1 : Int) : K) := by
    rw [← Int.cast_natCast (R := K), Int.natCast_sub (by omega)]
    rfl
  have lo : 0 ≤ (x : Int) + ⌊d⌋ ↔ 0 ≤ (x : K) + d := by
    rw [← Int.floor_natCast_add, Int.floor_nonneg]
  have hi : (x : Int) + ⌈d⌉ < right.h ↔ (x : K) + d ≤ ((right.h - 1 : Nat) : K) := by
    rw [hN, ← Int.ceil_le, Int.ceil_natCast_add]
    omega
  have hcast : 0 ≤ (x : Int) + ⌊d⌋ → ((((x : Int) + ⌊d⌋).toNat : Nat) : K) = (x : K) + (⌊d⌋ : K) := by
    intro q
    have : ((((x : Int) + ⌊d⌋).toNat : Int) : K) = (((x : Int) + ⌊d⌋ : Int) : K) := by rw [Int.toNat_of_nonneg q]
    push_cast at this
    exact_mod_cast this
  split_ifs with hin hz
  · rw [k1 ((x : Int) + ⌊d⌋).toNat 0 le_rfl one_pos ?_ (hi.1 hin.2)]
    · unfold lerpRow; rw [if_pos rfl]
    · rw [hcast hin.1]; linarith
  · rw [k1 ((x : Int) + ⌊d⌋).toNat (Int.fract d) f0 f1 ?_ (hi.1 hin.2)]
    · unfold lerpRow
      rw [if_neg hz, hcl, if_neg hz, show ((x : Int) + (⌊d⌋ + 1)).toNat = ((x : Int) + ⌊d⌋).toNat + 1 by omega]
    · rw [hcast hin.1]; linarith
  · refine k2 ?_
    rw [lo, hi] at hin
    by_contra q
    push Not at q
    exact hin q

section
variable {hw : Nat} {left right left' right' D D' : Img K} {a b a' b' : Nat} {lr hr lc hc : Int} {d : K}

/-- The values of the displaced images. -/
theorem displaced_scene (sc : SameScene hw left right left' right' a b a' b' lr hr lc hc) (hD : Displaced D right d) (hD' : Displaced D' right' d)
    (d0 : (lr : K) ≤ d) (d1 : d ≤ (hr : K)) (sz : left.h = right.h) (sz' : left'.h = right'.h)
    (hin : hw ≤ a ∧ a + hw < left.h ∧ hw ≤ b ∧ b + hw < left.w) {x : Nat} (hx : x < 2 * hw + 1) {y : Int}
    (y0 : lc - hw ≤ y) (y1 : y ≤ hc + hw) (y2 : 0 ≤ b + y) (y3 : b + y < right.w) :
    D'.im (a' + x - hw) (b' + y).toNat = D.im (a + x - hw) (b + y).toNat ∧
      Pandora.noDataAt D' (a' + x - hw) (b' + y).toNat = Pandora.noDataAt D (a + x - hw) (b + y).toNat := by
  have hin' := sc.fits.1 hin
  have hcol := (sc.cols y y0 y1).1 ⟨y2, y3⟩
  have l0 : lr ≤ ⌊d⌋ := Int.le_floor.2 d0
  have l1 : ⌈d⌉ ≤ hr := Int.ceil_le.2 d1
  have l2 := Int.floor_le_ceil d
  have key : D'.im (a' + x - hw) (b' + y).toNat = D.im (a + x - hw) (b + y).toNat := by
    rw [displaced_at hD (x := a + x - hw) (y := (b + y).toNat) (by omega) (by omega),
      displaced_at hD' (x := a' + x - hw) (y := (b' + y).toNat) (by omega) (by omega)]
    have r0 := sc.rows ((x : Int) - hw + ⌊d⌋) (by omega) (by omega)
    have r1 := sc.rows ((x : Int) - hw + ⌈d⌉) (by omega) (by omega)
    have e0 : ((a + x - hw : Nat) : Int) = a + ((x : Int) - hw) := by omega
    have e0' : ((a' + x - hw : Nat) : Int) = a' + ((x : Int) - hw) := by omega
    have iff : (0 ≤ ((a' + x - hw : Nat) : Int) + ⌊d⌋ ∧ ((a' + x - hw : Nat) : Int) + ⌈d⌉ < right'.h) ↔
        (0 ≤ ((a + x - hw : Nat) : Int) + ⌊d⌋ ∧ ((a + x - hw : Nat) : Int) + ⌈d⌉ < right.h) := by omega
    by_cases hi : 0 ≤ ((a + x - hw : Nat) : Int) + ⌊d⌋ ∧ ((a + x - hw : Nat) : Int) + ⌈d⌉ < right.h
    · rw [if_pos hi, if_pos (iff.2 hi)]
      have v0 := sc.values ((x : Int) - hw + ⌊d⌋) y (by omega) (by omega) y0 y1 (by omega) (by omega) y2 y3
      have v1 := sc.values ((x : Int) - hw + ⌈d⌉) y (by omega) (by omega) y0 y1 (by omega) (by omega) y2 y3
      rw [e0, e0', add_assoc, add_assoc, add_assoc, add_assoc]
      simp only [← add_assoc] at v0 v1 ⊢
      rw [v0, v1]
    · rw [if_neg hi, if_neg fun q => hi (iff.1 q), sc.noData]
  exact ⟨key, by rw [hD.flags, hD'.flags, key, sc.noData]⟩

variable {gmin gmax gmin' gmax' : Arr2 Int} {e : K}

theorem window_scene {ker : List (F K × F K) → F K} (sc : SameScene hw left right left' right' a b a' b' lr hr lc hc)
    (hD : Displaced D right d) (hD' : Displaced D' right' d)
    (d0 : (lr : K) ≤ d) (d1 : d ≤ (hr : K)) (c0 : (lc : K) ≤ e) (c1 : e ≤ (hc : K)) (sz : left.h = right.h) (sz' : left'.h = right'.h)
    (g : (gmin.get a b : K) ≤ e ∧ e ≤ (gmax.get a b : K)) (g' : (gmin'.get a' b' : K) ≤ e ∧ e ≤ (gmax'.get a' b' : K)) :
    Pandora.windowCost hw ker left' D' gmin' gmax' a' b' e = Pandora.windowCost hw ker left D gmin gmax a b e := by
  have w1 : D'.w = right'.w := hD'.size.2
  have w2 : D.w = right.w := hD.size.2
  have l0 : lc ≤ ⌊e⌋ := Int.le_floor.2 c0
  have l1 : ⌈e⌉ ≤ hc := Int.ceil_le.2 c1
  have l2 := Int.floor_le_ceil e
  have q0 := sc.cols (⌊e⌋ - hw) (by omega) (by omega)
  have q1 := sc.cols (⌈e⌉ + hw) (by omega) (by omega)
  obtain ⟨hwin, hcen⟩ := sc.window
  have hok : Pandora.windowOk hw left' D' gmin' gmax' a' b' e ↔ Pandora.windowOk hw left D gmin gmax a b e := by
    unfold Pandora.windowOk
    rw [w1, w2, hcen, Int.floor_natCast_add, Int.ceil_natCast_add, Int.floor_natCast_add, Int.ceil_natCast_add]
    simp only [g, g', hD.valid, hD'.valid, and_self, true_and, and_true]
    rw [sc.fits]
    refine and_congr_right fun h1' => ?_
    have h1 := sc.fits.2 h1'
    have hc2 : ((hw : Int) ≤ (b' : Int) + ⌊e⌋ ∧ (b' : Int) + ⌈e⌉ + hw < right'.w) ↔ ((hw : Int) ≤ (b : Int) + ⌊e⌋ ∧ (b : Int) + ⌈e⌉ + hw < right.w) := by
      omega
    rw [hc2]
    refine and_congr_right fun h2 => and_congr ?_ (and_congr_left' ?_)
    · constructor
      · intro h x hx y hy
        rw [← (hwin x hx y hy).2]; exact h x hx y hy
      · intro h x hx y hy
        rw [(hwin x hx y hy).2]; exact h x hx y hy
    · have h2' := hc2.2 h2
      have seen : ∀ x < 2 * hw + 1, ∀ y : Int, ⌊e⌋ - hw ≤ y → y ≤ ⌈e⌉ + hw →
          Pandora.noDataAt D' (a' + x - hw) (b' + y).toNat = Pandora.noDataAt D (a + x - hw) (b + y).toNat := fun x hx y y0 y1 =>
        (displaced_scene sc hD hD' d0 d1 sz sz' h1 hx (by omega) (by omega) (by omega) (by omega)).2
      constructor
      · intro h x hx y y1 y2
        have k := seen x hx ((y : Int) - b) (by omega) (by omega)
        rw [show ((b : Int) + ((y : Int) - b)).toNat = y by omega] at k
        rw [← k]
        exact h x hx _ (by omega) (by omega)
      · intro h x hx y y1 y2
        have k := seen x hx ((y : Int) - b') (by omega) (by omega)
        rw [show ((b' : Int) + ((y : Int) - b')).toNat = y by omega] at k
        rw [k]
        exact h x hx _ (by omega) (by omega)
  unfold Pandora.windowCost
  by_cases ok : Pandora.windowOk hw left D gmin gmax a b e
  · rw [if_pos ok, if_pos (hok.2 ok)]
    obtain ⟨h1, ⟨b5, b6⟩, -⟩ := ok
    rw [w2, Int.ceil_natCast_add] at b6
    rw [Int.floor_natCast_add] at b5
    have seen : ∀ x < 2 * hw + 1, ∀ y : Int, ⌊e⌋ - hw ≤ y → y ≤ ⌈e⌉ + hw →
        D'.im (a' + x - hw) (b' + y).toNat = D.im (a + x - hw) (b + y).toNat ∧ 0 ≤ (b' : Int) + y := fun x hx y y0 y1 =>
      ⟨(displaced_scene sc hD hD' d0 d1 sz sz' h1 hx (by omega) (by omega) (by omega) (by omega)).1,
        ((sc.cols y (by omega) (by omega)).1 ⟨by omega, by omega⟩).1⟩
    congr 1
    unfold Pandora.windowPairs
    refine List.flatMap_congr fun x hx => List.map_congr_left fun y hy => ?_
    rw [List.mem_range] at hx hy
    refine Prod.ext (hwin x hx y hy).1 ?_
    have eq : ∀ c : Nat, (c : K) + e + ((y : Nat) : K) - (hw : K) = e + (((c : Int) + ((y : Int) - hw) : Int) : K) := fun c => by push_cast; ring
    show Pandora.sampleCol D' _ _ = Pandora.sampleCol D _ _
    unfold Pandora.sampleCol
    rw [eq, eq, Int.floor_add_intCast, Int.fract_add_intCast, Int.floor_add_intCast, Int.fract_add_intCast]
    have s0 := seen x hx (⌊e⌋ + ((y : Int) - hw)) (by omega) (by omega)
    have r : ∀ c : Nat, ⌊e⌋ + ((c : Int) + ((y : Int) - hw)) = (c : Int) + (⌊e⌋ + ((y : Int) - hw)) := fun c => by ring
    rw [r, r]
    split_ifs with hz
    · exact s0.1
    · have hz' : 0 < Int.fract e := lt_of_le_of_ne (Int.fract_nonneg _) (Ne.symm hz)
      have hcl : ⌈e⌉ = ⌊e⌋ + 1 := by
        rw [Int.ceil_eq_iff]
        have hlt := Int.fract_lt_one e
        have hsum := Int.floor_add_fract e
        push_cast
        constructor <;> linarith
      have s1 := seen x hx (⌊e⌋ + ((y : Int) - hw) + 1) (by omega) (by omega)
      rw [show ((b' : Int) + (⌊e⌋ + ((y : Int) - hw) + 1)).toNat = ((b' : Int) + (⌊e⌋ + ((y : Int) - hw))).toNat + 1 by omega,
        show ((b : Int) + (⌊e⌋ + ((y : Int) - hw) + 1)).toNat = ((b : Int) + (⌊e⌋ + ((y : Int) - hw))).toNat + 1 by omega] at s1
      rw [s0.1, s1.1]
  · rw [if_neg ok, if_neg fun q => ok (hok.1 q)]

end

/-- C116: two images of the same scene, with different frames, give the same disparities of fractions of pixels where they overlap. Two
successful executions on full images, possibly of different sizes, without estimation nor refinement, with the same subpixel factor and window
cost. At a pixel of the first and a pixel of the second which have the same intervals and see the same scene (same left windows, same part of the
right images within the intervals), the disparities and the score are the same, except that each execution has its own invalid value. -/
theorem C116_overlap (w w' : World K) (user user' p p' mc mc' inp inp' l r l' r' : Fields) (out out' : List (Written K))
    (H W H' W' : Nat) (dRow dCol dRow' dCol' : Disp) (sr sc sr' sc' : Nat) (invalid invalid' : F K) (n hw : Nat) (me : Measure)
    (ker : List (F K × F K) → F K) (wf : user.wf) (wf' : user'.wf)
    (hdisk : DiskContract w H W) (hpan : PandoraContract w) (hkeeps : PandoraKeeps w.pandora) (hzoom : w.run.zoom = zoomLinear)
    (hdisk' : DiskContract w' H' W') (hpan' : PandoraContract w') (hkeeps' : PandoraKeeps w'.pandora) (hzoom' : w'.run.zoom = zoomLinear)
    (cfg : OnFullImages w user p mc inp l r H W dRow dCol sr sc invalid n hw me ker)
    (cfg' : OnFullImages w' user' p' mc' inp' l' r' H' W' dRow' dCol' sr' sc' invalid' n hw me ker)
    (h : Main.main w user = (out, none)) (h' : Main.main w' user' = (out', none)) :
    ∃ files rest files' rest' left right left' right', out = .rasters files :: rest ∧ out' = .rasters files' :: rest' ∧
      ImagesRead w l r none left right ∧ ImagesRead w' l' r' none left' right' ∧
      (∀ f ∈ [files.row, files.col, files.score], (∀ i, i < f.h ↔ i * sr < H) ∧ ∀ j, j < f.w ↔ j * sc < W) ∧
      (∀ f ∈ [files'.row, files'.col, files'.score], (∀ i, i < f.h ↔ i * sr' < H') ∧ ∀ j, j < f.w ↔ j * sc' < W') ∧
      ∀ i j i' j' a b a' b' : Nat, i < files.row.h → j < files.row.w → i' < files'.row.h → j' < files'.row.w →
        a = i * sr → b = j * sc → a' = i' * sr' → b' = j' * sc' →
        SameIntervalMoved dRow dRow' a b a' b' → SameIntervalMoved dCol dCol' a b a' b' →
        SameScene hw left right left' right' a b a' b' (initAt dRow a b - dRow.range) (initAt dRow a b + dRow.range)
          (initAt dCol a b - dCol.range) (initAt dCol a b + dCol.range) →
        SamePixel invalid invalid' (files.row.values i j) (files.col.values i j) (files.score.values i j)
          (files'.row.values i' j') (files'.col.values i' j') (files'.score.values i' j') := by
  obtain ⟨hn, files, rest, left, right, o, im, ⟨⟨s1, s2⟩, s3, s4⟩, z, key⟩ := full_rasters cfg wf hdisk hpan hkeeps h
  obtain ⟨-, files', rest', left', right', o', im', ⟨⟨s1', s2'⟩, s3', s4'⟩, z', key'⟩ := full_rasters cfg' wf' hdisk' hpan' hkeeps' h'
  refine ⟨files, rest, files', rest', left, right, left', right', o, o', im, im', z, z',
    fun i j i' j' a b a' b' hi hj hi' hj' ea eb ea' eb' ir ic scene => ?_⟩
  obtain ⟨gmin, gmax, ⟨g1, g2⟩, k⟩ := key i hi j hj
  obtain ⟨gmin', gmax', ⟨g1', g2'⟩, k'⟩ := key' i' hi' j' hj'
  rw [← ea, ← eb] at k g1 g2
  rw [← ea', ← eb'] at k' g1' g2'
  rw [hzoom] at k
  rw [hzoom'] at k'
  obtain ⟨r1, r2⟩ := ir
  obtain ⟨c1, c2⟩ := ic
  have hask : ∀ x y : K, AskedPair dRow' dCol' n a' b' x y ↔ AskedPair dRow dCol n a b x y := fun x y => by
    unfold AskedPair; rw [r1, r2, c1, c2]
  refine best_same k (best_congr (fun x y q => ?_) (best_asked hask k'))
  obtain ⟨⟨u, -, hx, -⟩, ⟨q1, q2⟩, q3, q4⟩ := q
  refine window_scene scene (slab_displaced right n hn x ⟨u, hx⟩) (slab_displaced right' n hn x ⟨u, hx⟩) q1 q2 q3 q4 (by omega) (by omega)
    ⟨?_, ?_⟩ ⟨?_, ?_⟩
  · rw [g1]; exact q3
  · rw [g2]; exact q4
  · rw [g1', ← c1]; exact q3
  · rw [g2', ← c2]; exact q4

/-! ## Examples -/

/-- A world of images of `rows` rows and three columns. -/
def exWorldQr (rows : Nat) : World ℚ :=
  { exWorldOf 0 rows with pandora := fun f => .ok (.int 1, if f.get "subpix" = some (.int 2) then .int 2 else .int 1, .int 1, ⟨0, 0, 0, 0⟩) }

/-- Images of `rows` rows and three columns without mask. -/
def exImgRows (rows : Nat) (f : Nat → Nat → F ℚ) : Img ℚ := { exLeftImg with h := rows, im := f }

noncomputable def exWorldRows (rows : Nat) (fl fr : Nat → Nat → F ℚ) : World ℚ :=
  { exWorldQr rows with
    cost := fun _ => Pandora.windowCost 0 sad
    files := { (exWorldQr rows).files with read := fun s roi =>
      let img := if isLeftSection s then exImgRows rows fl else exImgRows rows fr
      match roi with
      | none => .ok img
      | some R => .ok (cropImg img R) } }

theorem exWorldRows_contract (rows : Nat) (h0 : 1 ≤ rows) (fl fr : Nat → Nat → F ℚ) : RunContract (exWorldRows rows fl fr) rows 3 := by
  obtain ⟨⟨d1, d2, d3, d4, d5⟩, -, -, r, a, o, i, s⟩ := exWorldOf_contract 0 rows h0
  obtain ⟨-, -, k, -⟩ := exWorldV_contract
  refine ⟨⟨d1, d2, d3, ?_, ?_⟩, ⟨?_, fun _ => windowCost_contract 0 sad sad_finite⟩, k, ?_, fun _ _ _ _ => rfl, o, i, s⟩
  · intro v img h
    simp only [exWorldRows, Except.ok.injEq] at h
    subst h
    split_ifs <;> exact ⟨rfl, rfl, rfl, rfl⟩
  · intro v R img h h1 h2 h3
    simp only [exWorldRows, Except.ok.injEq] at h
    subst h
    have key : ∀ i : Img ℚ, i.h = rows → i.w = 3 → CropOk (cropImg i R) R rows 3 := by
      intro i hi hi'
      refine ⟨h1, h2, h3, rfl, rfl, ?_, ?_⟩
      · simp only [cropImg, hi]; push_cast at *; omega
      · simp only [cropImg, hi']; push_cast at *; omega
    split_ifs
    · exact key _ rfl rfl
    · exact key _ rfl rfl
  · exact exWorldV_contract.pandora.1
  · intro inp l r _ _ _ roi _
    cases roi with
    | none => exact ⟨_, _, rfl, rfl⟩
    | some R => exact ⟨_, _, rfl, rfl⟩

theorem exWorldRows_runs (rows : Nat) (hr : rows = 3 ∨ rows = 4) (fl fr : Nat → Nat → F ℚ) :
    Main.main (exWorldRows rows fl fr) (exUserSub 1 2 (.int 0)) = ((Main.main (exWorldRows rows fl fr) (exUserSub 1 2 (.int 0))).1, none) := by
  have : (Main.main (exWorldRows rows fl fr) (exUserSub 1 2 (.int 0))).2 = none := by
    obtain ⟨m, cfg, h⟩ := accepted_ok (w := exWorldQr rows) (user := exUserSub 1 2 (.int 0)) (by rcases hr with rfl | rfl <;> decide +kernel)
    refine (C99_runs_exactly (exWorldRows rows fl fr) _ _ _ cfg m rows 3 1 1 (exUserSub_wf _ _ _ (by simp [J.wf]))
      (exWorldRows_contract rows (by omega) fl fr) rfl ?_ rfl
      (.inl ⟨_, _, rfl, .inl rfl, .inl rfl⟩) rfl ⟨by omega, by decide⟩ (fun _ _ _ _ => ⟨_, _, rfl⟩) h).2 ⟨.inl ⟨rfl, rfl⟩, ?_⟩
    · simp [dict, Fields.keys]
    · intro f hf
      simp [dict, Fields.get] at hf
  exact Prod.ext rfl this

theorem exWorldRows_images (rows : Nat) (fl fr : Nat → Nat → F ℚ) (left right : Img ℚ) (h : ImagesRead (exWorldRows rows fl fr) exL exR none left right) :
    left = exImgRows rows fl ∧ right = exImgRows rows fr := by
  obtain ⟨lj, rj, k1, k2, h1, h2⟩ := h
  have g1 := k1 "img" _ rfl rfl
  have g2 := k2 "img" _ rfl rfl
  simp only [exWorldRows, Except.ok.injEq] at h1 h2
  have e1 : isLeftSection (.obj lj) = true := by simp [isLeftSection, g1, readValue]
  have e2 : isLeftSection (.obj rj) = false := by simp [isLeftSection, g2, readValue]
  rw [e1, if_pos rfl] at h1
  rw [e2, if_neg (by decide)] at h2
  exact ⟨h1.symm, h2.symm⟩

theorem exWorldRows_full (rows : Nat) (fl fr : Nat → Nat → F ℚ) :
    ∃ p inp, OnFullImages (exWorldRows rows fl fr) (exUserSub 1 2 (.int 0)) p (exMc 1 2) inp exL exR rows 3 ⟨.const 0, 1⟩ ⟨.const 0, 1⟩ 1 1 .nan
      2 0 .min sad :=
  ⟨_, _, rfl, rfl, rfl, rfl, rfl, rfl, rfl, rfl, ⟨_, _, _, _, _, .int 2, rfl, rfl, rfl, .inl rfl, rfl, rfl⟩,
    ⟨⟨_, rfl, ⟨_, _, _, rfl, rfl, rfl, .inl rfl, .inl ⟨_, .inl rfl, rfl⟩⟩, ⟨_, _, _, rfl, rfl, rfl, .inl rfl, .inl ⟨_, .inl rfl, rfl⟩⟩⟩,
    .inr ⟨rfl, rfl, rfl, rfl, rfl⟩,
    ⟨_, _, _, rfl, rfl, rfl, .inl ⟨_, _, rfl, .inl rfl, .inl rfl⟩, .inl ⟨_, rfl, .inr (.inr (.inl ⟨rfl, rfl⟩))⟩⟩⟩⟩

/-- Images of a scene of three rows, and images of the same scene with one more row above: the second row of the first gives the same as the
third row of the second, with disparities of half pixels. -/
example (fl fr : Nat → Nat → F ℚ) : ∃ files rest files' rest',
    Main.main (exWorldRows 3 (fun x y => fl (x + 1) y) (fun x y => fr (x + 1) y)) (exUserSub 1 2 (.int 0)) = (.rasters files :: rest, none) ∧
    Main.main (exWorldRows 4 fl fr) (exUserSub 1 2 (.int 0)) = (.rasters files' :: rest', none) ∧
    ∀ j < 3, SamePixel .nan .nan (files.row.values 1 j) (files.col.values 1 j) (files.score.values 1 j)
      (files'.row.values 2 j) (files'.col.values 2 j) (files'.score.values 2 j) := by
  obtain ⟨p, inp, cfg⟩ := exWorldRows_full 3 (fun x y => fl (x + 1) y) (fun x y => fr (x + 1) y)
  obtain ⟨p', inp', cfg'⟩ := exWorldRows_full 4 fl fr
  have r := exWorldRows_runs 3 (.inl rfl) (fun x y => fl (x + 1) y) (fun x y => fr (x + 1) y)
  have r' := exWorldRows_runs 4 (.inr rfl) fl fr
  have ct := exWorldRows_contract 3 (by decide) (fun x y => fl (x + 1) y) (fun x y => fr (x + 1) y)
  have ct' := exWorldRows_contract 4 (by decide) fl fr
  obtain ⟨files, rest, files', rest', left, right, left', right', o, o', im, im', z, z', key⟩ := C116_overlap _ _ _ _ _ _ _ _ _ _ _ _ _ _ _ _ 3 3 4 3
    _ _ _ _ 1 1 1 1 _ _ 2 0 .min sad
    (exUserSub_wf _ _ _ (by simp [J.wf])) (exUserSub_wf _ _ _ (by simp [J.wf])) ct.disk ct.pandora ct.keeps rfl ct'.disk ct'.pandora ct'.keeps rfl
    cfg cfg' r r'
  obtain ⟨rfl, rfl⟩ := exWorldRows_images _ _ _ _ _ im
  obtain ⟨rfl, rfl⟩ := exWorldRows_images _ _ _ _ _ im'
  have b := z _ List.mem_cons_self
  have b' := z' _ List.mem_cons_self
  refine ⟨files, rest, files', rest', by rw [r]; exact congrArg (·, none) o, by rw [r']; exact congrArg (·, none) o', fun j hj => ?_⟩
  refine key 1 j 2 j 1 j 2 j ((b.1 1).2 (by decide)) ((b.2 j).2 (by omega)) ((b'.1 2).2 (by decide)) ((b'.2 j).2 (by omega)) rfl (by omega) rfl (by omega)
    ⟨rfl, rfl⟩ ⟨rfl, rfl⟩ ⟨rfl, ⟨fun x hx y hy => ?_, rfl⟩, ?_, fun x h1 h2 => ?_, fun y h1 h2 => ?_, fun x y h1 h2 _ _ _ _ _ _ => ?_⟩
  · obtain rfl : x = 0 := by omega
    exact ⟨rfl, rfl⟩
  · simp [exImgRows, exLeftImg]
  · simp only [initAt, exImgRows] at *
    omega
  · simp [exImgRows, exLeftImg]
  · simp only [initAt, exImgRows] at *
    rw [show (((2 : Nat) : Int) + x).toNat = (((1 : Nat) : Int) + x).toNat + 1 by omega]

end Verif.Props
