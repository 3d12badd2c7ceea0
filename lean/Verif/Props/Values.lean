import Verif.Spec.Values
import Verif.Props.RunsExactly
import Verif.Props.Refined

/-!
# C100, C101: the rasters depend on the values of the configuration only, and a finer subpixel factor never worsens the score
-/

namespace Verif.Props

open Verif Verif.Config Verif.Machine Verif.ImgTools Verif.MatchingCost Verif.Disparity Verif.Estimation Verif.Run Verif.Main Verif.Spec
  Verif.Save Verif.Statistics

set_option linter.unusedSectionVars false

variable {K : Type} [Field K] [LinearOrder K] [IsStrictOrderedRing K] [FloorRing K]

/-- Two executions on the same images: the best pairs of a pixel they share, from the same images. -/
theorem two_runs (w : World K) (user user' p0 p0' mc mc' inp inp' : Fields) (out out' : List (Written K)) (H W : Nat)
    (dRow dCol dRow' dCol' : Disp) (sr sc sr' sc' : Nat) (invalid invalid' : F K) (n n' : Nat) (me : Measure) (pc : Pandora.Cost K)
    (wf : user.wf) (wf' : user'.wf) (hdisk : DiskContract w H W) (hpan : PandoraContract w) (hkeeps : PandoraKeeps w.pandora)
    (same : MatchedTwice w user user' p0 p0' mc mc' inp inp' n n' me pc)
    (ask : Asks w user H W dRow dCol 0 ((H : Int) - 1) 0 ((W : Int) - 1) sr sc invalid)
    (ask' : Asks w user' H W dRow' dCol' 0 ((H : Int) - 1) 0 ((W : Int) - 1) sr' sc' invalid')
    (h : Main.main w user = (out, none)) (h' : Main.main w user' = (out', none)) :
    ∃ files rest files' rest' left right gmin gmax gmin' gmax', (out = .rasters files :: rest ∧ out' = .rasters files' :: rest') ∧
      (0 < n ∧ 0 < n') ∧
      (∀ f ∈ [files.row, files.col, files.score], (∀ i, i < f.h ↔ i * sr < H) ∧ ∀ j, j < f.w ↔ j * sc < W) ∧
      (∀ f ∈ [files'.row, files'.col, files'.score], (∀ i, i < f.h ↔ i * sr' < H) ∧ ∀ j, j < f.w ↔ j * sc' < W) ∧
      (∀ a < H, ∀ b < W, gmin.get a b = initAt dCol a b - dCol.range ∧ gmax.get a b = initAt dCol a b + dCol.range ∧
        gmin'.get a b = initAt dCol' a b - dCol'.range ∧ gmax'.get a b = initAt dCol' a b + dCol'.range) ∧
      ∀ i j i' j', i < files.row.h → j < files.row.w → i' < files'.row.h → j' < files'.row.w → i * sr = i' * sr' → j * sc = j' * sc' →
        ∃ a < H, ∃ b < W,
          BestPair me (AskedPair dRow dCol n a b) (fun dr dc => pc left (slabImg w.run.zoom right n dr) gmin gmax a b dc) invalid
            (files.row.values i j) (files.col.values i j) (files.score.values i j) ∧
          BestPair me (AskedPair dRow' dCol' n' a b) (fun dr dc => pc left (slabImg w.run.zoom right n' dr) gmin' gmax' a b dc) invalid'
            (files'.row.values i' j') (files'.col.values i' j') (files'.score.values i' j') := by
  have hpd : ∀ {u p : Fields} {dR dC : Disp} {a b c d : Int} {x y : Nat} {iv : F K}, u.get "pipeline" = some (.obj p) →
      Asks w u H W dR dC a b c d x y iv → "disparity" ∈ p.keys := by
    intro u p dR dC a b c d x y iv hp hk
    obtain ⟨pl, mc, disp, a1, a2, a3, -⟩ := hk.steps
    rw [hp, Option.some.injEq, J.obj.injEq] at a1
    subst a1
    exact (Fields.get_isSome _ _).1 (by rw [a3]; rfl)
  obtain ⟨hu, hu'⟩ := same.pipelines
  obtain ⟨he, he'⟩ := same.noEstimation
  obtain ⟨s⟩ := main_stages w user p0 out wf hpan hu (hpd hu ask) h
  obtain ⟨s'⟩ := main_stages w user' p0' out' wf' hpan hu' (hpd hu' ask') h'
  obtain ⟨hn, dRow1, dCol1, gmin, gmax, -, i1, i2, -, i4, i5, -, -, -, i6⟩ :=
    s.winner hdisk hkeeps wf hu ask.zone (by omega) same.noRefinement.1 same.costs.1 same.matcher.1
  obtain ⟨hn', dRow2, dCol2, gmin', gmax', -, i1', i2', -, i4', i5', -, -, -, i6'⟩ :=
    s'.winner hdisk hkeeps wf' hu' ask'.zone (by omega) same.noRefinement.2 same.costs.2 same.matcher.2
  obtain ⟨-, -, -, -, -, z, -⟩ := s.inRange hdisk wf hu ask.zone (by omega) same.noRefinement.1
  obtain ⟨-, -, -, -, -, z', -⟩ := s'.inRange hdisk wf' hu' ask'.zone (by omega) same.noRefinement.2
  obtain ⟨j1, j2⟩ := i1 he
  obtain ⟨j1', j2'⟩ := i1' he'
  obtain ⟨⟨rfl, rfl⟩, ⟨rfl, rfl⟩, rfl⟩ := s.asked wf hu he ask j1 j2
  obtain ⟨⟨rfl, rfl⟩, ⟨rfl, rfl⟩, rfl⟩ := s'.asked wf' hu' he' ask' j1' j2'
  obtain ⟨n1, n2, l1, l2⟩ := same_images s s' wf wf' he he' same.inputs.1 same.inputs.2 same.left same.right same.full.1 same.full.2
  rw [n1] at i2
  obtain ⟨f1, f2, f3, f4, -⟩ := i2
  rw [l1] at i4' i5' i6'
  rw [l2] at i6'
  have size : ∀ {f : File K (F K)} {tr : Option (Affine K)} {x y : Nat}, ZoneFile f tr 0 ((H : Int) - 1) 0 ((W : Int) - 1) x y →
      (∀ i, i < f.h ↔ i * x < H) ∧ ∀ j, j < f.w ↔ j * y < W := by
    intro f tr x y hf
    refine ⟨fun i => ?_, fun j => ?_⟩
    · rw [hf.rows]
      have : (((i * x : Nat)) : Int) = (i : Int) * x := by push_cast; rfl
      omega
    · rw [hf.cols]
      have : (((j * y : Nat)) : Int) = (j : Int) * y := by push_cast; rfl
      omega
  refine ⟨s.files, _, s'.files, _, s.left.img, s.right.img, gmin, gmax, gmin', gmax', ⟨s.outIs, s'.outIs⟩, ⟨hn, hn'⟩, fun f hf => size (z f hf),
    fun f hf => size (z' f hf), fun a ha b hb => ?_, fun i j i' j' hi hj hi' hj' e1 e2 => ?_⟩
  · have g1 := i4 a (by omega) b (by omega)
    have g2 := i5 a (by omega) b (by omega)
    have g1' := i4' a (by omega) b (by omega)
    have g2' := i5' a (by omega) b (by omega)
    rw [f1, f2, zero_add, zero_add] at g1 g2 g1' g2'
    exact ⟨g1, g2, g1', g2'⟩
  obtain ⟨⟨a, b, ha, hb, ea, eb⟩, key⟩ := i6 i hi j hj
  have key' := (i6' i' hi' j' hj').2
  have e1' : (i' : Int) * s'.plan.cfg.stepRow = (i : Int) * s.plan.cfg.stepRow := by exact_mod_cast e1.symm
  have e2' : (j' : Int) * s'.plan.cfg.stepCol = (j : Int) * s.plan.cfg.stepCol := by exact_mod_cast e2.symm
  rw [e1', e2'] at key'
  rw [f1] at ea
  rw [f2] at eb
  have ta : (0 + (i : Int) * s.plan.cfg.stepRow - s.left.img.row0).toNat = a := by omega
  have tb : (0 + (j : Int) * s.plan.cfg.stepCol - s.left.img.col0).toNat = b := by omega
  rw [ta, tb] at key key'
  have hra : 0 + (i : Int) * s.plan.cfg.stepRow = a := by omega
  have hcb : 0 + (j : Int) * s.plan.cfg.stepCol = b := by omega
  rw [hra, hcb] at key key'
  exact ⟨a, by omega, b, by omega, key, key'⟩

theorem best_asked {m : Measure} {asked asked' : K → K → Prop} {cost : K → K → F K} {invalid r c s : F K}
    (ha : ∀ x y, asked x y ↔ asked' x y) (h : BestPair m asked cost invalid r c s) : BestPair m asked' cost invalid r c s := by
  obtain rfl : asked = asked' := funext fun x => funext fun y => propext (ha x y)
  exact h

/-- The disparities of a pixel whose best pair exists do not depend on the invalid value. -/
theorem best_same {m : Measure} {asked : K → K → Prop} {cost : K → K → F K} {invalid invalid' r c s r' c' s' : F K}
    (h : BestPair m asked cost invalid r c s) (h' : BestPair m asked cost invalid' r' c' s') :
    SamePixel invalid invalid' r c s r' c' s' := by
  by_cases hex : ∃ dr dc, asked dr dc ∧ cost dr dc ≠ .nan
  · right
    refine BestPair.unique (invalid := invalid) h ⟨fun hn => ?_, h'.best, h'.smallest⟩
    obtain ⟨x, y, q1, q2⟩ := hex
    exact absurd (hn x y q1) q2
  · push Not at hex
    obtain ⟨x1, x2, x3⟩ := h.invalid hex
    obtain ⟨y1, y2, y3⟩ := h'.invalid hex
    exact .inl ⟨x1, x2, x3, y1, y2, y3⟩

/-- C100: the rasters depend on the values of the configuration only. Two successful executions on the same full images, without estimation
nor refinement, with window costs and the same subpixel factor, whose intervals are equal at each pixel: the rasters have the sizes given by
the steps, and the values are equal at each pixel they share, except that each execution has its own invalid value. -/
theorem C100_values_only (w : World K) (user user' p0 p0' mc mc' inp inp' : Fields) (out out' : List (Written K)) (H W : Nat)
    (dRow dCol dRow' dCol' : Disp) (sr sc sr' sc' : Nat) (invalid invalid' : F K) (n hw : Nat) (me : Measure)
    (ker : List (F K × F K) → F K) (wf : user.wf) (wf' : user'.wf)
    (hdisk : DiskContract w H W) (hpan : PandoraContract w) (hkeeps : PandoraKeeps w.pandora)
    (same : MatchedTwice w user user' p0 p0' mc mc' inp inp' n n me (Pandora.windowCost hw ker))
    (ask : Asks w user H W dRow dCol 0 ((H : Int) - 1) 0 ((W : Int) - 1) sr sc invalid)
    (ask' : Asks w user' H W dRow' dCol' 0 ((H : Int) - 1) 0 ((W : Int) - 1) sr' sc' invalid')
    (hr : SameIntervals dRow dRow' H W) (hc : SameIntervals dCol dCol' H W)
    (h : Main.main w user = (out, none)) (h' : Main.main w user' = (out', none)) :
    ∃ files rest files' rest', out = .rasters files :: rest ∧ out' = .rasters files' :: rest' ∧
      (∀ f ∈ [files.row, files.col, files.score], (∀ i, i < f.h ↔ i * sr < H) ∧ ∀ j, j < f.w ↔ j * sc < W) ∧
      (∀ f ∈ [files'.row, files'.col, files'.score], (∀ i, i < f.h ↔ i * sr' < H) ∧ ∀ j, j < f.w ↔ j * sc' < W) ∧
      ∀ i j i' j', i < files.row.h → j < files.row.w → i' < files'.row.h → j' < files'.row.w → i * sr = i' * sr' → j * sc = j' * sc' →
        SamePixel invalid invalid' (files.row.values i j) (files.col.values i j) (files.score.values i j)
          (files'.row.values i' j') (files'.col.values i' j') (files'.score.values i' j') := by
  obtain ⟨files, rest, files', rest', left, right, gmin, gmax, gmin', gmax', ⟨o1, o2⟩, -, z1, z2, g, key⟩ :=
    two_runs w user user' p0 p0' mc mc' inp inp' out out' H W dRow dCol dRow' dCol' sr sc sr' sc' invalid invalid' n n me _ wf wf' hdisk hpan
      hkeeps same ask ask' h h'
  refine ⟨files, rest, files', rest', o1, o2, z1, z2, fun i j i' j' hi hj hi' hj' e1 e2 => ?_⟩
  obtain ⟨a, ha, b, hb, k1, k2⟩ := key i j i' j' hi hj hi' hj' e1 e2
  obtain ⟨r1, r2⟩ := hr a b (by omega) (by omega) (by omega) (by omega)
  obtain ⟨c1, c2⟩ := hc a b (by omega) (by omega) (by omega) (by omega)
  obtain ⟨g1, g2, g3, g4⟩ := g a ha b hb
  have asked : ∀ x y : K, AskedPair dRow' dCol' n a b x y ↔ AskedPair dRow dCol n a b x y := by
    intro x y
    unfold AskedPair
    rw [r1, r2, c1, c2]
  refine best_same k1 (best_congr (fun x y hxy => ?_) (best_asked asked k2))
  obtain ⟨-, -, q4, q5⟩ := hxy
  refine cost_wider ⟨?_, ?_⟩ ⟨?_, ?_⟩
  · rw [g3, ← c1]; exact q4
  · rw [g4, ← c2]; exact q5
  · rw [g1]; exact q4
  · rw [g2]; exact q5

/-- The image displaced by a multiple of `1 / n` is the same with the factors `n` and `q * n`. -/
theorem slab_finer (right : Img K) {n q : Nat} (hn : 0 < n) (hq : 0 < q) {d : K} (hd : ∃ a : Int, d * (n : K) = a) :
    slabImg zoomLinear right (q * n) d = slabImg zoomLinear right n d := by
  obtain ⟨a, ha⟩ := hd
  have hf : Int.fract d * (n : K) = ((a - ⌊d⌋ * n : Int) : K) := by
    rw [Int.fract, sub_mul, ha]; push_cast; ring
  have hi : iRight d (q * n) = q * iRight d n := by
    unfold iRight
    have : Int.fract d * ((q * n : Nat) : K) = (((q : Int) * (a - ⌊d⌋ * n) : Int) : K) := by
      rw [Nat.cast_mul, ← mul_assoc, mul_comm (Int.fract d), mul_assoc, hf]; push_cast; ring
    rw [this, hf, Int.floor_intCast, Int.floor_intCast]
    have h0 : 0 ≤ a - ⌊d⌋ * n := by
      have : (0 : K) ≤ Int.fract d * (n : K) := mul_nonneg (Int.fract_nonneg d) (Nat.cast_nonneg n)
      rw [hf] at this
      exact_mod_cast this
    rw [Int.toNat_mul (by omega) h0, Int.toNat_natCast]
  have hlt := iRight_lt (d := d) hn
  unfold slabImg
  rw [hi]
  congr 1
  generalize iRight d n = k at *
  unfold zoomed
  by_cases h0 : k = 0
  · subst h0; simp
  · rw [if_neg (by positivity), if_neg h0]
    congr 1
    funext t c
    have m1 : (k + t * n) % n = k := by rw [Nat.add_mul_mod_self_right, Nat.mod_eq_of_lt hlt]
    have d1 : (k + t * n) / n = t := by rw [Nat.add_mul_div_right _ _ hn, Nat.div_eq_of_lt hlt, zero_add]
    have e : q * k + t * (q * n) = q * (k + t * n) := by ring
    have m2 : (q * (k + t * n)) % (q * n) = q * k := by rw [Nat.mul_mod_mul_left, m1]
    have d2 : (q * (k + t * n)) / (q * n) = t := by rw [Nat.mul_div_mul_left _ _ hq, d1]
    have c1 : ((q * k : Nat) : K) / ((q * n : Nat) : K) = (k : K) / (n : K) := by
      have : (q : K) ≠ 0 := by positivity
      push_cast
      rw [mul_div_mul_left _ _ this]
    unfold zoomLinear
    rw [e, m1, d1, m2, d2, if_neg (by positivity : ¬ q * k = 0), if_neg h0, c1]

/-- C101: a finer subpixel factor never worsens the score. Two successful executions on the same full images, without estimation nor
refinement, with window costs and subpixel factors `n` and `q * n`, the intervals of the first being in those of the second: at each pixel
they share, the first gives the invalid value three times or a score which is not better than that of the second. -/
theorem C101_finer_never_worse (w : World K) (user user' p0 p0' mc mc' inp inp' : Fields) (out out' : List (Written K)) (H W : Nat)
    (dRow dCol dRow' dCol' : Disp) (sr sc sr' sc' : Nat) (invalid invalid' : F K) (n q hw : Nat) (me : Measure)
    (ker : List (F K × F K) → F K) (wf : user.wf) (wf' : user'.wf)
    (hdisk : DiskContract w H W) (hpan : PandoraContract w) (hkeeps : PandoraKeeps w.pandora) (hzoom : w.run.zoom = zoomLinear)
    (same : MatchedTwice w user user' p0 p0' mc mc' inp inp' n (q * n) me (Pandora.windowCost hw ker))
    (ask : Asks w user H W dRow dCol 0 ((H : Int) - 1) 0 ((W : Int) - 1) sr sc invalid)
    (ask' : Asks w user' H W dRow' dCol' 0 ((H : Int) - 1) 0 ((W : Int) - 1) sr' sc' invalid')
    (hr : Nested dRow dRow' H W) (hc : Nested dCol dCol' H W)
    (h : Main.main w user = (out, none)) (h' : Main.main w user' = (out', none)) :
    ∃ files rest files' rest', out = .rasters files :: rest ∧ out' = .rasters files' :: rest' ∧
      ∀ i j i' j', i < files.row.h → j < files.row.w → i' < files'.row.h → j' < files'.row.w → i * sr = i' * sr' → j * sc = j' * sc' →
        (files.row.values i j = invalid ∧ files.col.values i j = invalid ∧ files.score.values i j = invalid) ∨
        AtLeastAsGood me (files'.score.values i' j') (files.score.values i j) := by
  obtain ⟨files, rest, files', rest', left, right, gmin, gmax, gmin', gmax', ⟨o1, o2⟩, ⟨hn, hn'⟩, -, -, g, key⟩ :=
    two_runs w user user' p0 p0' mc mc' inp inp' out out' H W dRow dCol dRow' dCol' sr sc sr' sc' invalid invalid' n (q * n) me _ wf wf' hdisk
      hpan hkeeps same ask ask' h h'
  have hq : 0 < q := Nat.pos_of_mul_pos_right hn'
  refine ⟨files, rest, files', rest', o1, o2, fun i j i' j' hi hj hi' hj' e1 e2 => ?_⟩
  obtain ⟨a, ha, b, hb, k1, k2⟩ := key i j i' j' hi hj hi' hj' e1 e2
  obtain ⟨r1, r2⟩ := hr a b (by omega) (by omega) (by omega) (by omega)
  obtain ⟨c1, c2⟩ := hc a b (by omega) (by omega) (by omega) (by omega)
  obtain ⟨g1, g2, g3, g4⟩ := g a ha b hb
  have wide : ∀ x y : K, AskedPair dRow dCol n a b x y → AskedPair dRow' dCol' (q * n) a b x y := by
    rintro x y ⟨⟨u, v, q1, q1'⟩, ⟨q2, q3⟩, q4, q5⟩
    refine ⟨⟨q * u, q * v, ?_, ?_⟩, ⟨le_trans (Int.cast_le.2 r1) q2, le_trans q3 (Int.cast_le.2 r2)⟩, le_trans (Int.cast_le.2 c1) q4,
      le_trans q5 (Int.cast_le.2 c2)⟩
    · push_cast; rw [← q1]; ring
    · push_cast; rw [← q1']; ring
  have costs : ∀ x y : K, AskedPair dRow dCol n a b x y →
      Pandora.windowCost hw ker left (slabImg w.run.zoom right n x) gmin gmax a b y =
      Pandora.windowCost hw ker left (slabImg w.run.zoom right (q * n) x) gmin' gmax' a b y := by
    intro x y hxy
    obtain ⟨-, -, q4', q5'⟩ := wide x y hxy
    obtain ⟨⟨u, v, q1, -⟩, -, q4, q5⟩ := hxy
    rw [hzoom, slab_finer right hn hq ⟨u, q1⟩]
    refine cost_wider ⟨?_, ?_⟩ ⟨?_, ?_⟩
    · rw [g1]; exact q4
    · rw [g2]; exact q5
    · rw [g3]; exact q4'
    · rw [g4]; exact q5'
  by_cases hex : ∃ x y, AskedPair dRow dCol n a b x y ∧
      Pandora.windowCost hw ker left (slabImg w.run.zoom right n x) gmin gmax a b y ≠ .nan
  · right
    obtain ⟨⟨q1, x, y, q2, q3⟩, -⟩ := k1.best hex
    rw [costs x y q2] at q3
    exact (k2.best ⟨x, y, wide x y q2, by rw [q3]; exact q1⟩).2 _ ⟨q1, x, y, wide x y q2, q3⟩
  · left
    push Not at hex
    exact k1.invalid hex


/-! ### Non-vacuity -/

/-- Images of three rows and grids of ones. Pandora keeps the subpixel factor of the user. -/
def exWorldP : World ℚ :=
  { exWorldOf 0 3 with pandora := fun f => .ok (.int 1, if f.get "subpix" = some (.int 2) then .int 2 else .int 1, .int 1, ⟨0, 0, 0, 0⟩) }

/-- With windows of one pixel compared by `sad`. -/
noncomputable def exWorldV : World ℚ := { exWorldP with cost := fun _ => Pandora.windowCost 0 sad }

theorem exWorldV_contract : RunContract exWorldV 3 3 := by
  obtain ⟨⟨d1, d2, d3, d4, d5⟩, -, -, r, a, o, i, s⟩ := exWorldOf_contract 0 3 (by decide)
  refine ⟨⟨d1, d2, d3, d4, d5⟩, ⟨?_, fun _ => windowCost_contract 0 sad sad_finite⟩, ⟨?_, ?_⟩, r, a, o, i, s⟩
  · intro f a s b m h
    simp only [exWorldV, exWorldP, Except.ok.injEq, Prod.mk.injEq] at h
    obtain ⟨-, rfl, -, -⟩ := h
    split_ifs
    · exact ⟨2, .inl rfl, by decide⟩
    · exact ⟨1, .inl rfl, by decide⟩
  · intro f a s b m h
    simp only [exWorldV, exWorldP, Except.ok.injEq, Prod.mk.injEq] at h
    obtain ⟨rfl, rfl, rfl, -⟩ := h
    refine ⟨⟨_, .inl rfl⟩, ?_, ⟨_, .inl rfl⟩⟩
    split_ifs
    · exact ⟨1, .inl rfl⟩
    · exact ⟨0, .inl rfl⟩
  · intro f g a s b m h hg1 hg2 hg3 _
    simp only [exWorldV, exWorldP, Except.ok.injEq, Prod.mk.injEq] at h ⊢
    obtain ⟨rfl, rfl, rfl, rfl⟩ := h
    refine ⟨rfl, ?_, rfl, rfl⟩
    rw [hg2]
    by_cases hc : f.get "subpix" = some (.int 2)
    · rw [if_pos hc, if_pos rfl]
    · rw [if_neg hc, if_neg (by decide)]

/-- A configuration with a subpixel factor. -/
def exUserSub (sr sub : Int) (init : J) : Fields := dict [("input", exInput (some init)),
  ("pipeline", .obj (dict [
    ("matching_cost", .obj (dict [("matching_cost_method", .str "zncc"), ("window_size", .int 1),
      ("step", .arr (.cons (.int sr) (.cons (.int 1) .nil))), ("subpix", .int sub)])),
    ("disparity", .obj (dict [("disparity_method", .str "wta"), ("invalid_disparity", .str "NaN")]))]))]

theorem exUserSub_wf (sr sub : Int) (init : J) (hi : init.wf) : (exUserSub sr sub init).wf := by
  simp [exUserSub, exInput, dict, Fields.append, Fields.wf, J.wf, Fields.keys, hi]

theorem exFlat : FlatAt ⟨.grid (exWorldV.files.grid "grid.tif"), 1⟩ 3 3 := by
  intro R C h1 h2 h3 h4
  simp only [initAt, exWorldV, exWorldP, exWorldOf]
  rw [if_pos (by omega), if_pos (by decide)]

/-- Those which the check accepts, with an integer or a grid of ones, run. -/
theorem exUserSub_runs (sr sub : Nat) (init : J) (hi : init.wf) (ha : accepted exWorldP (exUserSub sr sub init) = true)
    (hd : init = .int 1 ∨ init = .str "grid.tif") :
    Main.main exWorldV (exUserSub sr sub init) = ((Main.main exWorldV (exUserSub sr sub init)).1, none) := by
  have : (Main.main exWorldV (exUserSub sr sub init)).2 = none := by
    obtain ⟨m, cfg, h⟩ := accepted_ok ha
    refine (C99_runs_exactly exWorldV _ _ _ cfg m 3 3 sr 1 (exUserSub_wf _ _ _ hi) exWorldV_contract rfl ?_ rfl
      (.inl ⟨_, _, rfl, .inl rfl, .inl rfl⟩) rfl ⟨by decide, by decide⟩ (fun _ _ _ _ => ⟨_, _, rfl⟩) h).2 ⟨?_, ?_⟩
    · simp [dict, Fields.keys]
    · rcases hd with rfl | rfl
      · refine .inr (.inr ⟨_, ⟨.const 1, 1⟩, ⟨.const 1, 1⟩, rfl, ⟨_, _, _, rfl, rfl, rfl, .inl rfl, .inl ⟨_, .inl rfl, rfl⟩⟩,
          ⟨_, _, _, rfl, rfl, rfl, .inl rfl, .inl ⟨_, .inl rfl, rfl⟩⟩, ?_, ?_⟩) <;>
        · intro R C _ _ _ _; rfl
      · exact .inr (.inr ⟨_, _, _, rfl, ⟨_, _, _, rfl, rfl, rfl, .inl rfl, .inr ⟨_, rfl, rfl⟩⟩,
          ⟨_, _, _, rfl, rfl, rfl, .inl rfl, .inr ⟨_, rfl, rfl⟩⟩, exFlat, exFlat⟩)
    · intro f hf
      simp [dict, Fields.get] at hf
  rw [← this]

def exMc (sr sub : Int) : Fields := dict [("matching_cost_method", .str "zncc"), ("window_size", .int 1),
  ("step", .arr (.cons (.int sr) (.cons (.int 1) .nil))), ("subpix", .int sub)]

theorem exMc_matcher : MatcherIs exWorldV (exMc 1 1) 1 .min (Pandora.windowCost 0 sad) :=
  ⟨_, _, _, _, _, .int 1, rfl, rfl, rfl, .inl rfl, rfl, rfl⟩

theorem exMc_matcher_step : MatcherIs exWorldV (exMc 2 1) 1 .min (Pandora.windowCost 0 sad) :=
  ⟨_, _, _, _, _, .int 1, rfl, rfl, rfl, .inl rfl, rfl, rfl⟩

theorem exMc_matcher_sub : MatcherIs exWorldV (exMc 1 2) 2 .min (Pandora.windowCost 0 sad) :=
  ⟨_, _, _, _, _, .int 2, rfl, rfl, rfl, .inl rfl, rfl, rfl⟩

theorem exUserSub_int (sr sub : Nat) : Asks exWorldV (exUserSub sr sub (.int 1)) 3 3 ⟨.const 1, 1⟩ ⟨.const 1, 1⟩ 0 (((3 : Nat) : Int) - 1) 0
    (((3 : Nat) : Int) - 1) sr 1 .nan :=
  ⟨⟨_, rfl, ⟨_, _, _, rfl, rfl, rfl, .inl rfl, .inl ⟨_, .inl rfl, rfl⟩⟩, ⟨_, _, _, rfl, rfl, rfl, .inl rfl, .inl ⟨_, .inl rfl, rfl⟩⟩⟩,
    .inr ⟨rfl, rfl, rfl, rfl, rfl⟩,
    ⟨_, _, _, rfl, rfl, rfl, .inl ⟨_, _, rfl, .inl rfl, .inl rfl⟩, .inl ⟨_, rfl, .inr (.inr (.inl ⟨rfl, rfl⟩))⟩⟩⟩

theorem exUserSub_grid (sr sub : Nat) : Asks exWorldV (exUserSub sr sub (.str "grid.tif")) 3 3 ⟨.grid (exWorldV.files.grid "grid.tif"), 1⟩
    ⟨.grid (exWorldV.files.grid "grid.tif"), 1⟩ 0 (((3 : Nat) : Int) - 1) 0 (((3 : Nat) : Int) - 1) sr 1 .nan :=
  ⟨⟨_, rfl, ⟨_, _, _, rfl, rfl, rfl, .inl rfl, .inr ⟨_, rfl, rfl⟩⟩, ⟨_, _, _, rfl, rfl, rfl, .inl rfl, .inr ⟨_, rfl, rfl⟩⟩⟩,
    .inr ⟨rfl, rfl, rfl, rfl, rfl⟩,
    ⟨_, _, _, rfl, rfl, rfl, .inl ⟨_, _, rfl, .inl rfl, .inl rfl⟩, .inl ⟨_, rfl, .inr (.inr (.inl ⟨rfl, rfl⟩))⟩⟩⟩

theorem exSame : SameIntervals ⟨.const 1, 1⟩ ⟨.grid (exWorldV.files.grid "grid.tif"), 1⟩ 3 3 := by
  intro R C h1 h2 h3 h4
  rw [exFlat R C h1 h2 h3 h4]
  simp [initAt, exWorldV, exWorldP, exWorldOf]

/-- The hypotheses of C100 hold: the integer one with steps of one, against a grid of ones with a step of two rows. -/
example := C100_values_only exWorldV (exUserSub 1 1 (.int 1)) (exUserSub 2 1 (.str "grid.tif")) _ _ (exMc 1 1) (exMc 2 1) _ _ _ _ 3 3 _ _ _ _ 1 1 2 1
  .nan .nan 1 0 .min sad (exUserSub_wf _ _ _ (by simp [J.wf])) (exUserSub_wf _ _ _ (by simp [J.wf])) exWorldV_contract.disk
  exWorldV_contract.pandora exWorldV_contract.keeps
  ⟨⟨rfl, rfl⟩, ⟨_, rfl, rfl⟩, ⟨_, rfl, rfl⟩, ⟨rfl, rfl⟩, ⟨rfl, rfl⟩, ⟨rfl, rfl⟩, ⟨rfl, rfl⟩, ⟨rfl, rfl⟩, exMc_matcher, exMc_matcher_step⟩
  (exUserSub_int 1 1) (exUserSub_grid 2 1) exSame exSame
  (exUserSub_runs 1 1 _ (by simp [J.wf]) (by decide +kernel) (.inl rfl)) (exUserSub_runs 2 1 _ (by simp [J.wf]) (by decide +kernel) (.inr rfl))

/-- The hypotheses of C101 hold: whole pixels against half pixels. -/
example := C101_finer_never_worse exWorldV (exUserSub 1 1 (.int 1)) (exUserSub 1 2 (.int 1)) _ _ (exMc 1 1) (exMc 1 2) _ _ _ _ 3 3 _ _ _ _ 1 1 1 1
  .nan .nan 1 2 0 .min sad (exUserSub_wf _ _ _ (by simp [J.wf])) (exUserSub_wf _ _ _ (by simp [J.wf])) exWorldV_contract.disk
  exWorldV_contract.pandora exWorldV_contract.keeps rfl
  ⟨⟨rfl, rfl⟩, ⟨_, rfl, rfl⟩, ⟨_, rfl, rfl⟩, ⟨rfl, rfl⟩, ⟨rfl, rfl⟩, ⟨rfl, rfl⟩, ⟨rfl, rfl⟩, ⟨rfl, rfl⟩, exMc_matcher, exMc_matcher_sub⟩
  (exUserSub_int 1 1) (exUserSub_int 1 2) (fun _ _ _ _ _ _ => by simp [initAt]) (fun _ _ _ _ _ _ => by simp [initAt])
  (exUserSub_runs 1 1 _ (by simp [J.wf]) (by decide +kernel) (.inl rfl)) (exUserSub_runs 1 2 _ (by simp [J.wf]) (by decide +kernel) (.inl rfl))

end Verif.Props
