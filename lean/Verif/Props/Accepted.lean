import Verif.Props.Completes

/-!
# C81: an accepted configuration runs to the end
-/

namespace Verif.Props

open Verif Verif.Config Verif.Machine Verif.ImgTools Verif.MatchingCost Verif.Disparity Verif.Estimation Verif.Run Verif.Main Verif.Spec
  Verif.Save Verif.Statistics

set_option linter.unusedSectionVars false

variable {K : Type} [Field K] [LinearOrder K] [IsStrictOrderedRing K] [FloorRing K]

/-- A ROI of the image, with margins. -/
structure RoiIn (R : Roi) (H W : Nat) : Prop where
  rows : 0 ≤ R.rowFirst ∧ R.rowFirst ≤ R.rowLast ∧ R.rowLast < H
  cols : 0 ≤ R.colFirst ∧ R.colFirst ≤ R.colLast ∧ R.colLast < W
  margins : 0 ≤ R.margins.left ∧ 0 ≤ R.margins.up ∧ 0 ≤ R.margins.right ∧ 0 ≤ R.margins.down

/-- What is assumed from outside for a run to succeed: images accepted by the check can be read, whole or in a ROI of the image; Pandora's
`check_dataset` accepts the datasets of the images which were read; the offset of Pandora is half of its window; the interpolation and the
filters do not fail. -/
structure RunContract (w : World K) (H W : Nat) : Prop where
  disk : DiskContract w H W
  pandora : PandoraContract w
  keeps : PandoraKeeps w.pandora
  readable : ∀ inp l r, w.env.checkImages (.obj inp) = none → inp.get "left" = some l → inp.get "right" = some r →
    ∀ roi : Option Roi, (∀ R, roi = some R → RoiIn R H W) → ∃ x y, w.files.read l roi = .ok x ∧ w.files.read r roi = .ok y
  accepts : ∀ v roi (L : Left K), w.files.read v roi = .ok L.img → w.check L = none
  offset : ∀ g v n, g.get "window_size" = some v → IsInt true v n → w.offset (.obj g) = ((n - 1) / 2).toNat
  interp : InterpContract w.run.interp
  sinc : ∀ n it, 6 ≤ n → n ≤ 21 → it ≤ 9 → HasCoeffs (w.sinc n (2 ^ it)) it ∧
    FitsMargins (w.sinc n (2 ^ it)).left (w.sinc n (2 ^ it)).up (w.sinc n (2 ^ it)).size (Dichotomy.sincMargins n)

/-! ## Images and datasets -/

theorem images_checked {env : Config.Env} {user cfg inp : Fields} {est : Bool} (h : checkInputSection env user est = .ok cfg)
    (hin : cfg.get "input" = some (.obj inp)) : env.checkImages (.obj inp) = none := by
  obtain ⟨c, -, -, h, -⟩ := checkInputSection_ok h
  unfold validateInput at h
  rw [hin] at h
  cases hi : env.checkImages (.obj inp) with
  | none => rfl
  | some e =>
    simp only [hi] at h
    split_ifs at h

theorem roiFor_in {user : Fields} {roi : Option Roi} {H W : Nat} {rf rl cf cl : Int} (hf : RoiFor user roi)
    (hz : ZoneIs user H W rf rl cf cl) (hl : rl < H ∧ cl < W) : ∀ R, roi = some R → RoiIn R H W := by
  intro R hR
  rw [hR] at hf
  obtain ⟨v, hv, hv', b1, b2⟩ := hf
  obtain ⟨rfl, rfl, rfl, rfl⟩ := ZoneIs.unique_roi (v := .nil) hz hv hv'
  exact ⟨⟨b1.1, b1.2.1, hl.1⟩, ⟨b1.2.2.1, b1.2.2.2, hl.2⟩, b2⟩

theorem zone_forward {w : World K} {user : Fields} {roi : Option Roi} {H W : Nat} {rf rl cf cl : Int} (hdisk : DiskContract w H W)
    (hf : RoiFor user roi) (hz : ZoneIs user H W rf rl cf cl) (hl : rl < H ∧ cl < W) {v : J} {img : Img K}
    (h : w.files.read v roi = .ok img) : ZoneOk img roi H W rf rl cf cl := by
  have hin := roiFor_in hf hz hl
  cases roi with
  | none =>
    rcases hz with ⟨v, hv, -⟩ | ⟨-, rfl, rfl, rfl, rfl⟩
    · rw [show user.get "ROI" = none from hf] at hv; simp at hv
    · obtain ⟨a1, a2, a3, a4⟩ := hdisk.whole v _ h
      exact ⟨a1, a2, a3, a4, rfl, rfl, rfl, rfl⟩
  | some R =>
    obtain ⟨i1, i2, i3⟩ := hin R rfl
    obtain ⟨v, hv, hv', -⟩ := hf
    obtain ⟨rfl, rfl, rfl, rfl⟩ := ZoneIs.unique_roi (v := .nil) hz hv hv'
    exact ⟨hdisk.crop _ R _ h i1 i2 i3, rfl, rfl, rfl, rfl⟩

theorem zone_size {img : Img K} {roi : Option Roi} {H W : Nat} {rf rl cf cl : Int} (h : ZoneOk img roi H W rf rl cf cl)
    (hne : rf < rl ∧ rl < H ∧ cf < cl ∧ cl < W) :
    2 ≤ img.h ∧ 2 ≤ img.w ∧ (0 ≤ img.row0 ∧ img.row0 + img.h ≤ H) ∧ (0 ≤ img.col0 ∧ img.col0 + img.w ≤ W) := by
  cases roi with
  | none =>
    obtain ⟨a1, a2, a3, a4, a5, a6, a7, a8⟩ := h
    omega
  | some R =>
    obtain ⟨hc, rfl, rfl, rfl, rfl⟩ := h
    have c1 := hc.row0; have c2 := hc.col0; have c3 := hc.row1; have c4 := hc.col1
    obtain ⟨m1, m2, m3, m4⟩ := hc.margins
    have := hc.rows; have := hc.cols
    refine ⟨?_, ?_, ⟨?_, ?_⟩, ⟨?_, ?_⟩⟩ <;> omega

theorem zone_size_le {img : Img K} {roi : Option Roi} {H W : Nat} {rf rl cf cl : Int} (h : ZoneOk img roi H W rf rl cf cl)
    (hne : rf < rl ∧ rl < H ∧ cf < cl ∧ cl < W) : (rl - rf + 1).toNat ≤ img.h ∧ (cl - cf + 1).toNat ≤ img.w := by
  cases roi with
  | none =>
    obtain ⟨a1, a2, a3, a4, a5, a6, a7, a8⟩ := h
    omega
  | some R =>
    obtain ⟨hc, rfl, rfl, rfl, rfl⟩ := h
    have c1 := hc.row0; have c2 := hc.col0; have c3 := hc.row1; have c4 := hc.col1
    obtain ⟨m1, m2, m3, m4⟩ := hc.margins
    have := hc.rows; have := hc.cols
    constructor <;> omega

theorem zone_same {a b : Img K} {roi : Option Roi} {H W : Nat} {rf rl cf cl : Int} (ha : ZoneOk a roi H W rf rl cf cl)
    (hb : ZoneOk b roi H W rf rl cf cl) : SameZone a b := by
  cases roi with
  | none =>
    obtain ⟨a1, a2, a3, a4, -⟩ := ha
    obtain ⟨b1, b2, b3, b4, -⟩ := hb
    exact ⟨by omega, by omega, by omega, by omega⟩
  | some R =>
    obtain ⟨ha, -⟩ := ha
    obtain ⟨hb, -⟩ := hb
    have c1 := ha.row0; have c2 := ha.col0; have c3 := ha.row1; have c4 := ha.col1
    have d1 := hb.row0; have d2 := hb.col0; have d3 := hb.row1; have d4 := hb.col1
    exact ⟨by omega, by omega, by omega, by omega⟩

/-- The datasets are created and accepted. -/
theorem datasets_forward {w : World K} {user ui cfg inp : Fields} {roi : Option Roi} {H W : Nat} {rf rl cf cl : Int} {est : Bool}
    (hc : RunContract w H W) (hck : checkInputSection w.env ui est = .ok cfg) (hin : cfg.get "input" = some (.obj inp))
    (hf : RoiFor user roi) (hz : ZoneIs user H W rf rl cf cl) (hne : rf < rl ∧ rl < H ∧ cf < cl ∧ cl < W) :
    ∃ inp' L R, Datasets.createDatasets w.files inp roi est = .ok (inp', L, R) ∧ Datasets.checkDatasets w.check L R = .ok () ∧
      ZoneOk L.img roi H W rf rl cf cl ∧ (R.img.h = L.img.h ∧ R.img.w = L.img.w) ∧
      (est = false → SameDisk w.env w.files inp roi L.img R.img) := by
  obtain ⟨inp2, q1, q2, -⟩ := input_ok w.env ui cfg est hck
  rw [hin, Option.some.injEq, J.obj.injEq] at q1
  subst q1
  obtain ⟨l, hl⟩ := schema_image w.env inp q2 "left" (Or.inl rfl)
  obtain ⟨r, hr⟩ := schema_image w.env inp q2 "right" (Or.inr rfl)
  have hlast : rl < H ∧ cl < W := ⟨hne.2.1, hne.2.2.2⟩
  obtain ⟨li, ri, h1, h2⟩ := hc.readable inp l r (images_checked hck hin) hl hr roi (roiFor_in hf hz hlast)
  have z1 := zone_forward hc.disk hf hz hlast h1
  have z2 := zone_forward hc.disk hf hz hlast h2
  obtain ⟨s1, s2, s3, s4⟩ := zone_size z1 hne
  have hs := zone_same z1 z2
  have hok : ∀ L R : Left K, L.img = li → R.img = ri → Datasets.checkDatasets w.check L R = .ok () := by
    intro L R e1 e2
    unfold Datasets.checkDatasets
    rw [hc.accepts l roi L (by rw [e1]; exact h1), hc.accepts r roi R (by rw [e2]; exact h2)]
    simp only
    rw [e1, e2, if_neg (by simp [hs.2.2.1, hs.2.2.2])]
  cases est with
  | false =>
    have hsd : SameDisk w.env w.files inp roi li ri := by
      refine ⟨hc.disk.grids, fun v hv => ?_, fun v hv => ?_, by omega, by omega, fun H' W' hs' => ?_⟩
      · rw [hl, Option.some.injEq] at hv; subst hv; exact h1
      · rw [hr, Option.some.injEq] at hv; subst hv; exact h2
      · have := hc.disk.size _ _ hs'
        simp only [Prod.mk.injEq] at this
        obtain ⟨rfl, rfl⟩ := this
        exact ⟨s3.1, s3.2, s4.1, s4.2⟩
    obtain ⟨L, R, e0, e1, e2⟩ := C75_created_partial w.env w.files ui cfg inp roi li ri hck hin hsd hs s1 s2
    exact ⟨inp, L, R, e0, hok L R e1 e2, by rw [e1]; exact z1, by rw [e1, e2]; exact ⟨hs.2.2.1.symm, hs.2.2.2.symm⟩,
      fun _ => by rw [e1, e2]; exact hsd⟩
  | true =>
    have hcr : ∃ inp' L R, Datasets.createDatasets w.files inp roi true = .ok (inp', L, R) ∧ L.img = li ∧ R.img = ri := by
      unfold Datasets.createDatasets Datasets.addDisparityGrid
      simp only [if_true, bind, Except.bind, pure, Except.pure, item, Fields.get_set, String.reduceEq, if_false, hl, hr, h1, h2,
        Datasets.dispOf, Datasets.placeholder, Fields.get, isIntPy, rangeOf, intVal, getMinMax]
      exact ⟨_, _, _, rfl, rfl, rfl⟩
    obtain ⟨inp', L, R, e0, e1, e2⟩ := hcr
    exact ⟨inp', L, R, e0, hok L R e1 e2, by rw [e1]; exact z1, by rw [e1, e2]; exact ⟨hs.2.2.1.symm, hs.2.2.2.symm⟩, by simp⟩

/-! ## Steps -/

theorem buildAll_forward (w : World K) (a : Machine.Attrs J Margins) : ∀ l : Pipeline J, (∀ x ∈ l, ∃ c, build w a x.1 x.2 = .ok c) →
    ∃ s, buildAll w a l = .ok s
  | [], _ => ⟨[], rfl⟩
  | (k, v) :: l, h => by
    obtain ⟨c, hc⟩ := h (k, v) List.mem_cons_self
    obtain ⟨s, hs⟩ := buildAll_forward w a l fun x hx => h x (List.mem_cons_of_mem _ hx)
    simp only at hc
    simp only [buildAll, hc, hs, bind, Except.bind, pure, Except.pure]
    exact ⟨_, rfl⟩

theorem step_keys {l : List String} {key : String} (h : WellFormed l) (hn : l.Nodup) (hk : key ∈ l) :
    key = "estimation" ∨ key = "matching_cost" ∨ key = "disparity" ∨ key = "refinement" := by
  obtain ⟨e, h1 | h1 | h1 | h1⟩ := wellFormed_cases h hn <;> rw [h1] at hk <;> cases e <;> simp at hk <;> tauto

/-- The estimation completes the configuration. -/
theorem completed_forward {w : World K} {steps : Pipeline (StepCfg K)} {l r : Img K} {cfg inp pl : Fields}
    (hc : (∃ a b s, lookup steps "estimation" = .ok (.estimation a b s)) → ∀ s, ∃ x y, w.run.correlation l r s = (.fin x, .fin y))
    (hi : cfg.get "input" = some (.obj inp)) (hp : cfg.get "pipeline" = some (.obj pl))
    (he : (∃ a b s, lookup steps "estimation" = .ok (.estimation a b s)) → ∃ est, pl.get "estimation" = some (.obj est)) :
    ∃ cfg3, completed w steps l r cfg = .ok cfg3 := by
  unfold completed
  split
  · rename_i rr rc sf hl
    obtain ⟨x, y, hxy⟩ := hc ⟨_, _, _, hl⟩ sf
    obtain ⟨est, he⟩ := he ⟨_, _, _, hl⟩
    simp only [hxy, estimationRun_fin, updateCfg, modifyIn, hi, hp, he, bind, Except.bind, Fields.get_set, String.reduceEq, if_false,
      pure, Except.pure, Except.map]
    exact ⟨_, rfl⟩
  · exact ⟨_, rfl⟩

theorem constant_of_config {row0 col0 : Int} {h w : Nat} {d : Disp} {L : MinMax} {i : Int} (hd : d.init = .const i)
    (hL : getMinMax row0 col0 h w d false = .ok L) : ConstantRange L h w := by
  unfold getMinMax at hL
  rw [hd] at hL
  simp only [Except.ok.injEq] at hL
  subst hL
  intro r _ c _
  exact ⟨rfl, rfl⟩

/-- The two initial disparities of the user are integers. -/
def ConstantInits (user : Fields) : Prop :=
  ∃ inp row col i j a b, user.get "input" = some (.obj inp) ∧ inp.get "row_disparity" = some (.obj row) ∧
    inp.get "col_disparity" = some (.obj col) ∧ row.get "init" = some i ∧ col.get "init" = some j ∧ IsInt true i a ∧ IsInt true j b

theorem const_of_user {files : Datasets.Files K} {uf cf f : Fields} {key : String} {d : Disp} {i : J} {a : Int}
    (hk : cf.get key = (uf.get key).map J.convAll) (hu : uf.get key = some (.obj f)) (hi : f.get "init" = some i) (ha : IsInt true i a)
    (hc : IsDisp files cf key d) : ∃ n, d.init = .const n := by
  obtain ⟨g, i', r', e1', e2', e3', e4', e5'⟩ := hc
  rw [hk, hu, Option.map_some, Option.some.injEq, J.convAll, J.obj.injEq] at e1'
  subst e1'
  rw [Fields.get_convAll, hi, Option.map_some, Option.some.injEq] at e2'
  subst e2'
  rcases e5' with ⟨n, -, e⟩ | ⟨s, hs, -⟩
  · exact ⟨n, e⟩
  · exfalso
    obtain rfl := convAll_eq_str hs
    rcases ha with h | ⟨-, ⟨h, -⟩ | ⟨h, -⟩⟩ <;> simp at h

/-! ## C81 -/

/-- The window which Pandora chooses for the matching cost section fits in the zone. -/
def FlowFits (w : World K) (mc : Fields) (sr sc : Nat) (rf rl cf cl : Int) : Prop :=
  ∀ c st wn mar, ∀ half : Nat, matchingCostCheck w.pandora (J.obj mc).convAll = .ok (c, st, wn, mar) →
    IsInt true wn ((2 * half + 1 : Nat) : Int) → WindowFits half sr (rl - rf + 1).toNat ∧ WindowFits half sc (cl - cf + 1).toNat

/-- The refinement of the user, if there is one, is an interpolation, or a dichotomy with steps of one, or an optical flow whose window fits,
without ROI or with steps of one. -/
def RefinementOk (w : World K) (user p0 mc : Fields) (sr sc : Nat) (rf rl cf cl : Int) : Prop :=
  ∀ v, p0.get "refinement" = some v → ∃ f, v = .obj f ∧ (f.get "refinement_method" = some (.str "interpolation") ∨
    (f.get "refinement_method" = some (.str "dichotomy") ∧ sr = 1 ∧ sc = 1) ∨
    (f.get "refinement_method" = some (.str "optical_flow") ∧ (user.get "ROI" = none ∨ (sr = 1 ∧ sc = 1)) ∧
      FlowFits w mc sr sc rf rl cf cl))

/-- The estimation of the user, if there is one, finds finite shifts, and there is no ROI or the initial disparities are integers or not
given, or two grids. -/
def EstimationOk (w : World K) (user p0 : Fields) : Prop :=
  p0.get "estimation" ≠ none → (∀ l r s, ∃ x y, w.run.correlation l r s = (.fin x, .fin y)) ∧
    (user.get "ROI" = none ∨ ∃ inp, user.get "input" = some (.obj inp) ∧
      ((GivesInt inp "col_disparity" ∧ GivesInt inp "row_disparity") ∨ (GivesGrid inp "col_disparity" ∧ GivesGrid inp "row_disparity")))

/-- The estimation of the user, if there is one, finds finite shifts, and there is no ROI or the disparities of the section checked are two
constants or two grids. -/
def EstimationFits (w : World K) (user p0 : Fields) : Prop :=
  p0.get "estimation" ≠ none → (∀ l r s, ∃ x y, w.run.correlation l r s = (.fin x, .fin y)) ∧
    (user.get "ROI" = none ∨ ∀ cin inp, checkInputSection w.env (getConfigInput user) true = .ok cin → cin.get "input" = some (.obj inp) →
      ∃ dCol dRow, IsDisp w.files inp "col_disparity" dCol ∧ IsDisp w.files inp "row_disparity" dRow ∧ SameInit dCol dRow)

theorem IsDisp.unique {files : Datasets.Files K} {f : Fields} {key : String} {d d' : Disp} (h : IsDisp files f key d)
    (h' : IsDisp files f key d') : d = d' := by
  obtain ⟨g, i, r, e1, e2, e3, e4, e5⟩ := h
  obtain ⟨g', i', r', e1', e2', e3', e4', e5'⟩ := h'
  rw [e1, Option.some.injEq, J.obj.injEq] at e1'
  subst e1'
  rw [e2, Option.some.injEq] at e2'
  rw [e3, Option.some.injEq] at e3'
  subst e2' e3'
  have hr : d.range = d'.range := IsInt.unique e4 e4'
  have hi : d.init = d'.init := by
    rcases e5 with ⟨n, hn, e⟩ | ⟨s, rfl, e⟩ <;> rcases e5' with ⟨n', hn', e'⟩ | ⟨s', hs', e'⟩
    · rw [e, e', IsInt.unique hn hn']
    · subst hs'
      rcases hn with h | ⟨-, ⟨h, -⟩ | ⟨h, -⟩⟩ <;> simp at h
    · rcases hn' with h | ⟨-, ⟨h, -⟩ | ⟨h, -⟩⟩ <;> simp at h
    · simp only [J.str.injEq] at hs'
      rw [e, e', hs']
  cases d; cases d'
  simp_all

/-- The region of a run, made by `get_roi_processing` from the recorded margins and the disparities asked. -/
def RegionMade (w : World K) (m : Mach (Machine.Attrs J Margins)) (roi : Option Roi) (dRow dCol : Disp) : Prop :=
  ∀ R, roi = some R → ∃ R0, R0.margins = w.globalMargins m.data.cumulative m.data.nonCumulative ∧ getRoiProcessing R0 dCol dRow = .ok (R, R)

/-- The points of the cost volumes for the image read have windows which fit and are as many as the points of the grids. -/
def FlowReads (w : World K) (user p0 mc : Fields) (m : Mach (Machine.Attrs J Margins)) (H W sr sc : Nat) (rf rl cf cl : Int) : Prop :=
  ∀ c st wn mar, ∀ half : Nat, matchingCostCheck w.pandora (J.obj mc).convAll = .ok (c, st, wn, mar) →
    IsInt true wn ((2 * half + 1 : Nat) : Int) → 1 ≤ sr → 1 ≤ sc → ∀ roi (img : Img K), RoiFor user roi → ZoneOk img roi H W rf rl cf cl →
    (p0.get "estimation" = none → ∃ cin inp dRow dCol, checkInputSection w.env (getConfigInput user) false = .ok cin ∧
      cin.get "input" = some (.obj inp) ∧ IsDisp w.files inp "row_disparity" dRow ∧ IsDisp w.files inp "col_disparity" dCol ∧
      RegionMade w m roi dRow dCol) →
    (∃ cin inp, checkInputSection w.env (getConfigInput user) (givesEstimation p0) = .ok cin ∧ cin.get "input" = some (.obj inp) ∧
      ∀ dRow dCol, IsDisp w.files inp "row_disparity" dRow → IsDisp w.files inp "col_disparity" dCol → RegionMade w m roi dRow dCol) →
    FlowPoints (rowMargin roi) img.row0 img.h sr half ∧ FlowPoints (colMargin roi) img.col0 img.w sc half

/-- The refinement of the user, if there is one, is an interpolation, or a dichotomy with steps of one, or an optical flow which runs on the image
read. -/
def RefinementFits (w : World K) (user p0 mc : Fields) (m : Mach (Machine.Attrs J Margins)) (H W sr sc : Nat) (rf rl cf cl : Int) : Prop :=
  ∀ v, p0.get "refinement" = some v → ∃ f, v = .obj f ∧ (f.get "refinement_method" = some (.str "interpolation") ∨
    (f.get "refinement_method" = some (.str "dichotomy") ∧ sr = 1 ∧ sc = 1) ∨
    (f.get "refinement_method" = some (.str "optical_flow") ∧ FlowReads w user p0 mc m H W sr sc rf rl cf cl))

/-- What a checked refinement of the user becomes. -/
theorem refinement_forward {w : World K} {user p0 mc pl' : Fields} {m : Mach (Machine.Attrs J Margins)} {sr sc : Nat}
    {rf rl cf cl : Int} (hw : user.wf)
    (hu : user.get "pipeline" = some (.obj p0)) (hmc : p0.get "matching_cost" = some (.obj mc))
    (h : checkPipelineJ w.steps user (fresh .init) = (m, .ok (.cons "pipeline" (.obj pl') .nil)))
    {H W : Nat} (hr : RefinementFits w user p0 mc m H W sr sc rf rl cf cl) {v : J}
    (hv : p0.get "refinement" = some v) :
    ∃ v' c, pl'.get "refinement" = some v' ∧ buildRefinement w m.data v' = .ok c ∧ (c = .interpolation ∨
      (∃ it flt mg, it ≤ 9 ∧ c = .dichotomy flt it ∧ FilterWithMargins w it flt mg ∧ refinementMargins m.data = some mg ∧ sr = 1 ∧
        sc = 1) ∨
      ∃ half it : Nat, ∃ cm st wn mar, 1 ≤ half ∧ c = .opticalFlow ⟨2 * half + 1, it⟩ ∧
        matchingCostCheck w.pandora (J.obj mc).convAll = .ok (cm, st, wn, mar) ∧ IsInt true wn ((2 * half + 1 : Nat) : Int) ∧
        FlowReads w user p0 mc m H W sr sc rf rl cf cl) := by
  obtain ⟨-, -, -, -, hg⟩ := pipeline_new w.steps user p0 pl' m hw hu h
  obtain ⟨c, v', h1, h2, h3, h4⟩ := hg _ _ hv
  have hpw : p0.wf := Fields.wf_get user hw hu
  have hvw := Fields.wf_get p0 hpw hv
  obtain ⟨f, rfl, hm⟩ := hr v hv
  have hfw : f.wf := hvw
  obtain ⟨vm, cm, st, wn, mar, c', k1, k2, k3, k4, k5, k6⟩ := checked_with hw hu h hv
  rw [hmc, Option.some.injEq] at k1
  subst k1
  rw [h2, Option.some.injEq, Prod.mk.injEq] at k6
  obtain ⟨-, rfl⟩ := k6
  rcases hm with hm | ⟨hm, e1, e2⟩ | ⟨hm, e1⟩
  · exact ⟨v', _, h4, (interp_rebuilt hfw hm k5 h3).1, Or.inl rfl⟩
  · obtain ⟨it, flt, q1, q2, q3, -⟩ := dicho_rebuilt (a := m.data) hfw hm k5 h3
    exact ⟨v', _, h4, q2, Or.inr (Or.inl ⟨it, flt, _, q1, rfl, q3, refinement_margins hw hu h h2, e1, e2⟩)⟩
  · obtain ⟨half, it, q1, q2, q3, -⟩ := flow_rebuilt hfw hm k3 k4 (mc_values k2).1 k5 h3
    exact ⟨v', _, h4, q3, Or.inr (Or.inr ⟨half, it, cm, st, wn, mar, q1, rfl, k2, q2, e1⟩)⟩

theorem region_made {w : World K} {m : Mach (Machine.Attrs J Margins)} {cfg cfg1 inp : Fields} {col row : J} {roi : Option Roi}
    {dRow dCol : Disp} (k1 : inp.get "col_disparity" = some col) (k2 : inp.get "row_disparity" = some row)
    (k3 : roiStep w m.data cfg col row = .ok (cfg1, roi, roi)) (hr : IsDisp w.files inp "row_disparity" dRow)
    (hc : IsDisp w.files inp "col_disparity" dCol) : RegionMade w m roi dRow dCol := by
  intro R hR
  unfold roiStep at k3
  cases hv : cfg.get "ROI" with
  | none =>
    rw [hv] at k3
    simp only [Except.ok.injEq, Prod.mk.injEq] at k3
    rw [hR] at k3
    simp at k3
  | some v =>
    rw [hv] at k3
    simp only at k3
    obtain ⟨R0, e1, h⟩ := bind_eq_ok k3
    obtain ⟨c, e2, h⟩ := bind_eq_ok h
    obtain ⟨r, e3, h⟩ := bind_eq_ok h
    obtain ⟨o, e4, h⟩ := bind_eq_ok h
    obtain ⟨f, e5, h⟩ := bind_eq_ok h
    simp only [pure, Except.pure, Except.ok.injEq, Prod.mk.injEq] at h
    obtain ⟨-, h1, -⟩ := h
    rw [hR, Option.some.injEq] at h1
    have hc' : c = dCol := IsDisp.unique (by
      obtain ⟨f, i, r, x1, x2⟩ := dispOf_ok e2
      subst x1
      exact ⟨f, i, r, k1, x2⟩) hc
    have hr' : r = dRow := IsDisp.unique (by
      obtain ⟨f, i, r, x1, x2⟩ := dispOf_ok e3
      subst x1
      exact ⟨f, i, r, k2, x2⟩) hr
    subst hc' hr'
    obtain ⟨⟨-, -, -, -, a5⟩, -⟩ := C18_margins_cover_disparities R0 c r o.1 o.2 e4
    refine ⟨R0, ?_, ?_⟩
    · unfold asRoi at e1
      obtain ⟨_, -, e1⟩ := bind_eq_ok e1
      obtain ⟨_, -, e1⟩ := bind_eq_ok e1
      obtain ⟨_, -, e1⟩ := bind_eq_ok e1
      simp only [pure, Except.pure, Except.ok.injEq] at e1
      rw [← e1]
    · rw [e4, ← h1, Except.ok.injEq]
      exact Prod.ext rfl a5

/-- The ranges of the image read for the disparities of the user, without estimation, are the same for all its pixels. -/
def RangesFlat (w : World K) (user : Fields) (m : Mach (Machine.Attrs J Margins)) (H W : Nat) (rf rl cf cl : Int) : Prop :=
  ∀ cin inp roi (img : Img K) dRow dCol R C, checkInputSection w.env (getConfigInput user) false = .ok cin →
    cin.get "input" = some (.obj inp) → RoiFor user roi → ZoneOk img roi H W rf rl cf cl → IsDisp w.files inp "row_disparity" dRow →
    IsDisp w.files inp "col_disparity" dCol → RegionMade w m roi dRow dCol → getMinMax img.row0 img.col0 img.h img.w dRow false = .ok R →
    getMinMax img.row0 img.col0 img.h img.w dCol false = .ok C → ConstantRange R img.h img.w ∧ ConstantRange C img.h img.w

theorem constantInits_flat {w : World K} {user : Fields} {m : Mach (Machine.Attrs J Margins)} {H W : Nat} {rf rl cf cl : Int} (hw : user.wf)
    (h : ConstantInits user) : RangesFlat w user m H W rf rl cf cl := by
  obtain ⟨ui, row, col, i, j, a, b, u1, u2, u3, u4, u5, u6, u7⟩ := h
  intro cin inp roi img dRow dCol R C c2 hinp _ _ i1 i2 _ g1 g2
  obtain ⟨c, x1, x2, -, -⟩ := checkInputSection_ok c2
  simp only [Bool.false_eq_true, if_false] at x2
  subst x2
  obtain ⟨uf, y1, y2, y3⟩ := input_section_get (getConfigInput_wf hw) x1 hinp (by rw [getConfigInput_get, u1]; rfl)
  rw [getConfigInput_get, u1, Option.some.injEq, J.obj.injEq] at y1
  subst y1
  obtain ⟨n, hn⟩ := const_of_user (y3 _ (by decide) (by decide)) u2 u4 u6 i1
  obtain ⟨n', hn'⟩ := const_of_user (y3 _ (by decide) (by decide)) u3 u5 u7 i2
  exact ⟨constant_of_config hn g1, constant_of_config hn' g2⟩

theorem dispOf_isDisp {files : Datasets.Files K} {inp g : Fields} {key : String} {d : Disp} (hk : inp.get key = some (.obj g))
    (h : IsDisp files inp key d) : Datasets.dispOf files (.obj g) = .ok d := by
  obtain ⟨f, i, r, e1, e2, e3, e4, e5⟩ := h
  rw [hk, Option.some.injEq, J.obj.injEq] at e1
  subst e1
  rcases d with ⟨di, dr⟩
  rcases e5 with ⟨n, hn, e⟩ | ⟨s, rfl, e⟩
  · simp only at e
    subst e
    exact (dispOf_of e2 e3 e4).1 n hn
  · simp only at e
    subst e
    exact (dispOf_of e2 e3 e4).2 s rfl

theorem EstimationOk.fits {w : World K} {user p0 : Fields} (hw : user.wf) (h : EstimationOk w user p0) : EstimationFits w user p0 := by
  intro he
  refine ⟨(h he).1, (h he).2.imp_right ?_⟩
  rintro ⟨ui, u1, u2⟩ cin inp c2 hinp
  obtain ⟨inp', hinp', hsch, -⟩ := input_ok w.env _ cin _ c2
  rw [hinp, Option.some.injEq, J.obj.injEq] at hinp'
  subst hinp'
  obtain ⟨fc, -, -, -, hcol, -⟩ := schema_disp w.env inp hsch "col_disparity" (Or.inl rfl)
  obtain ⟨fr, -, -, -, hrow, -⟩ := schema_disp w.env inp hsch "row_disparity" (Or.inr rfl)
  obtain ⟨dc, dr, q1, q2, q3⟩ := default_disps (files := w.files) (getConfigInput_wf hw) c2 (by rw [getConfigInput_get]; exact u1) u2 hinp hcol hrow
  refine ⟨dc, dr, ?_, ?_, q3⟩
  · obtain ⟨f, i, r, x1, x2⟩ := dispOf_ok q1
    rw [J.obj.injEq] at x1
    subst x1
    exact ⟨fc, i, r, hcol, x2⟩
  · obtain ⟨f, i, r, x1, x2⟩ := dispOf_ok q2
    rw [J.obj.injEq] at x1
    subst x1
    exact ⟨fr, i, r, hrow, x2⟩

/-- An accepted configuration with a disparity step runs to the end. -/
theorem accepted_runs_fits (w : World K) (user p0 mc cfg : Fields) (m : Mach (Machine.Attrs J Margins)) (H W : Nat)
    (rf rl cf cl : Int) (sr sc : Nat) (hw : user.wf) (hc : RunContract w H W) (hu : user.get "pipeline" = some (.obj p0))
    (hd : "disparity" ∈ p0.keys) (hmc : p0.get "matching_cost" = some (.obj mc)) (hst : StepIs mc sr sc)
    (hz : ZoneIs user H W rf rl cf cl) (hne : rf < rl ∧ rl < H ∧ cf < cl ∧ cl < W) (hest : EstimationFits w user p0)
    (href : RefinementFits w user p0 mc m H W sr sc rf rl cf cl) (hcase : (sr = 1 ∧ sc = 1) ∨ p0.get "estimation" ≠ none ∨ RangesFlat w user m H W rf rl cf cl)
    (h : Config.checkConf w.env w.steps user (fresh .init) = (m, .ok cfg)) : (Main.main w user).2 = none := by
  obtain ⟨p0', cin, pl', c1, c2, c3, -, c5, c6, c7, c8⟩ := checkConf_gets w.env w.steps user cfg _ m hw h
  rw [hu, Option.some.injEq, J.obj.injEq] at c1
  subst c1
  obtain ⟨hwf, hk, -, hm, hg⟩ := pipeline_new w.steps user p0 pl' m hw hu c3
  have hpw : p0.wf := Fields.wf_get user hw hu
  have hn : p0.keys.Nodup := Fields.wf_keys p0 hpw
  have hsome : ∀ k, k ∈ p0.keys → ∃ v, p0.get k = some v := fun k hk => Option.isSome_iff_exists.1 ((Fields.get_isSome p0 k).2 hk)
  -- the estimation
  have hestv : ∀ v, p0.get "estimation" = some v → ∃ v' rr rc sf g, pl'.get "estimation" = some v' ∧ v' = .obj g ∧ v ≠ .null ∧
      buildEstimation w v' = .ok (.estimation rr rc sf) := by
    intro v hv
    obtain ⟨c, v', h1, -, h3, h4⟩ := hg _ _ hv
    obtain ⟨rr, rc, sf, hb⟩ := est_rebuilt (Fields.wf_get p0 hpw hv) h1 h3
    obtain ⟨g, -, -, -, e, -⟩ := buildEstimation_ranges hb
    refine ⟨v', rr, rc, sf, g, h4, e, ?_, hb⟩
    rintro rfl
    simp [Checked, World.steps, stepsOf, J.convAll, conv, estimationCheck] at h1
  have hge : givesEstimation p0 = (pl'.get "estimation").isSome := by
    unfold givesEstimation
    cases he : p0.get "estimation" with
    | none =>
      have : pl'.get "estimation" = none := by rw [Fields.get_eq_none, hk, ← Fields.get_eq_none]; exact he
      rw [this]; rfl
    | some v =>
      obtain ⟨v', _, _, _, _, e1, -, e2, -⟩ := hestv v he
      rw [e1]
      simp [e2]
  obtain ⟨inp, hinp, hsch, -⟩ := input_ok w.env _ cin _ c2
  obtain ⟨fc, -, -, -, hcol, -⟩ := schema_disp w.env inp hsch "col_disparity" (Or.inl rfl)
  obtain ⟨fr, -, -, -, hrow, -⟩ := schema_disp w.env inp hsch "row_disparity" (Or.inr rfl)
  -- the ROI
  have hdisps : cfg.get "ROI" ≠ none → ∃ dc dr, Datasets.dispOf w.files (.obj fc) = .ok dc ∧ Datasets.dispOf w.files (.obj fr) = .ok dr ∧
      SameInit dc dr := by
    intro hR
    rw [c7] at hR
    cases hb : givesEstimation p0 with
    | false =>
      rw [hb] at c2
      exact input_disps c2 hinp hcol hrow
    | true =>
      rw [hb] at c2
      have he : p0.get "estimation" ≠ none := by
        intro he
        unfold givesEstimation at hb
        rw [he] at hb
        simp at hb
      rcases (hest he).2 with hR' | hdd
      · exact absurd hR' hR
      · obtain ⟨dc, dr, u1, u2, u3⟩ := hdd _ _ c2 hinp
        exact ⟨dc, dr, dispOf_isDisp hcol u1, dispOf_isDisp hrow u2, u3⟩
  obtain ⟨cfg1, readRoi, roi, hroi⟩ := roiStep_forward (w := w) (a := m.data) (fun v hv => c5 v (by rw [← c7]; exact hv)) hdisps
  obtain ⟨r1, r2, r3, r4⟩ := roiStep_ok w m.data cfg cfg1 _ _ readRoi roi hroi
  subst r1
  have hf : RoiFor user readRoi := by
    cases hR : user.get "ROI" with
    | none =>
      rw [(r3 (by rw [c7]; exact hR)).1]
      exact hR
    | some v =>
      obtain ⟨R, rfl, b1, b2⟩ := r4 v (by rw [c7]; exact hR)
      exact ⟨v, hR, b1, roiOk_bounds (c5 v hR) b1, b2⟩
  -- the datasets
  obtain ⟨inp', left, right, d1, d2, d3, d4, d5⟩ := datasets_forward hc c2 hinp hf hz hne
  have d1' := d1
  rw [hge] at d1'
  -- the steps
  obtain ⟨cm, vm', hm1, -, hm2, hm3⟩ := hg _ _ hmc
  obtain ⟨me, k, cost, hbm, -⟩ := mc_rebuilt hc.keeps hm1 hm2 hst
  obtain ⟨vd, hvd⟩ := hsome _ hd
  obtain ⟨cd, vd', hd1, -, hd2, hd3⟩ := hg _ _ hvd
  obtain ⟨xd, hbd⟩ := disp_rebuilt (Fields.wf_get p0 hpw hvd) hd1 hd2
  have hbuild : ∃ s, buildAll w m.data (toPipeline pl') = .ok s := by
    rw [toPipeline_eq pl' (by rw [hk]; exact hn) _ rfl]
    apply buildAll_forward
    intro x hx
    rw [List.mem_map] at hx
    obtain ⟨key, hkey, rfl⟩ := hx
    rw [hk] at hkey
    rcases step_keys hwf hn hkey with rfl | rfl | rfl | rfl
    · obtain ⟨v, hv⟩ := hsome _ hkey
      obtain ⟨v', rr, rc, sf, _, e1, -, -, e2⟩ := hestv v hv
      refine ⟨.estimation rr rc sf, ?_⟩
      rw [(build_names w m.data _).1, e1]
      exact e2
    · refine ⟨.matchingCost ⟨2 ^ k, sr, sc, me⟩ (w.offset cm) cost, ?_⟩
      rw [(build_names w m.data _).2.1, hm3]
      exact hbm
    · refine ⟨.disparity xd, ?_⟩
      rw [(build_names w m.data _).2.2.1, hd3]
      exact hbd
    · obtain ⟨v, hv⟩ := hsome _ hkey
      obtain ⟨v', c, e1, e2, -⟩ := refinement_forward hw hu hmc c3 href hv
      refine ⟨c, ?_⟩
      rw [(build_names w m.data _).2.2.2, e1]
      exact e2
  obtain ⟨steps, hsteps⟩ := hbuild
  obtain ⟨p, rfl, hr⟩ := launch_plan w hc.pandora user p0 pl' m hw hu hd c3 steps hsteps
  obtain ⟨b1, b2, b3, b4⟩ := hr.steps
  obtain ⟨vb, hvb, hvb'⟩ := hr.built
  rw [hm3, Option.some.injEq] at hvb
  subst hvb
  rw [hbm, Except.ok.injEq, StepCfg.matchingCost.injEq] at hvb'
  obtain ⟨hcfg, hoff, -⟩ := hvb'
  have hsub : p.cfg.subpix = 2 ^ k := by rw [← hcfg]
  have hsr : p.cfg.stepRow = sr := by rw [← hcfg]
  have hsc : p.cfg.stepCol = sc := by rw [← hcfg]
  obtain ⟨t1, t2, -⟩ := zone_size d3 hne
  -- the ranges
  have hL : ∃ (L : Left K) (dRow dCol : Disp), searched w.run p left right.img = .ok L ∧ L.img = left.img ∧ 0 ≤ dRow.range ∧
      0 ≤ dCol.range ∧
      getMinMax L.img.row0 L.img.col0 L.img.h L.img.w dRow false = .ok L.rowDisp ∧
      getMinMax L.img.row0 L.img.col0 L.img.h L.img.w dCol false = .ok L.colDisp ∧
      ((sr = 1 ∧ sc = 1) ∨ (ConstantRange L.rowDisp L.img.h L.img.w ∧ ConstantRange L.colDisp L.img.h L.img.w)) := by
    cases he : p.estimation with
    | none =>
      have he' : p0.get "estimation" = none := hr.estimation.2 he
      have hb : givesEstimation p0 = false := by unfold givesEstimation; rw [he']
      rw [hb] at c2 d1 d5
      obtain ⟨-, -, -, -, dRow, dCol, i1, i2, g1, g2, g3, g4⟩ :=
        C75_pair_ok w.env w.files _ cin inp inp' readRoi w.check left right c2 hinp d1 d2 (d5 rfl)
      refine ⟨left, dRow, dCol, by unfold searched; rw [he], rfl, g1, g2, g3, g4, ?_⟩
      rcases hcase with hcase | hcase | hcase
      · exact Or.inl hcase
      · exact absurd he' hcase
      · exact Or.inr (hcase _ _ _ _ _ _ _ _ c2 hinp hf d3 i1 i2 (region_made hcol hrow hroi i1 i2) g3 g4)
    | some x =>
      obtain ⟨rr, rc, sf⟩ := x
      have he' : p0.get "estimation" ≠ none := fun e => by rw [hr.estimation.1 e] at he; simp at he
      obtain ⟨x, y, hxy⟩ := (hest he').1 left.img right.img sf
      obtain ⟨v, v1, v2⟩ := hr.estimated rr rc sf he
      obtain ⟨-, -, -, -, -, -, -, -, -, -, -, -, g1, g2⟩ := buildEstimation_ranges v2
      have hs : ∃ L, searched w.run p left right.img = .ok L := by
        unfold searched
        rw [he]
        simp only [hxy]
        exact ⟨_, rfl⟩
      obtain ⟨L, hs⟩ := hs
      obtain ⟨a1, a2, a3⟩ := searched_ranges w.run p left L right.img rr rc sf x y he hxy hs
      exact ⟨L, _, _, hs, a1, by simp only; omega, by simp only; omega, a2, a3, Or.inr ⟨constant_of_config rfl a2, constant_of_config rfl a3⟩⟩
  obtain ⟨L, dRow, dCol, l1, l2, l3, l4, l5, l6, l7⟩ := hL
  have hh : 0 < L.img.h := by rw [l2]; omega
  have hwd : 0 < L.img.w := by rw [l2]; omega
  have hpair : PairOk L right.img := ⟨hh, hwd, by rw [l2]; exact d4.1, by rw [l2]; exact d4.2, ranges_wf _ _ _ _ _ _ _ hh hwd l4 l6,
    ranges_wf _ _ _ _ _ _ _ hh hwd l3 l5⟩
  have hrefinable : Refinable w p (refinementMargins m.data) readRoi L.img := by
    cases hv : p0.get "refinement" with
    | none => exact .none (hr.noRefinement hv)
    | some v =>
      obtain ⟨v', c, e1, e2, e3⟩ := hr.refinement v hv
      obtain ⟨v'', c', e1', e2', hcase'⟩ := refinement_forward hw hu hmc c3 href hv
      rw [e1, Option.some.injEq] at e1'
      subst e1'
      rw [e2, Except.ok.injEq] at e2'
      subst e2'
      rcases hcase' with rfl | ⟨it, flt, mg, q1, rfl, q2, q3, q4, q5⟩ | ⟨half, it, cm', st, wn, mar, q1, rfl, q2, q3, q4⟩
      · exact .interpolation e3 hc.interp
      · refine .dichotomy flt it mg e3 q3 ?_ ?_ (by rw [hsr]; exact q4) (by rw [hsc]; exact q5)
        · rcases q2 with ⟨rfl, rfl⟩ | ⟨n, n1, n2, rfl, rfl⟩
          · exact C46_bicubic_fits
          · exact (hc.sinc n it n1 n2 q1).2
        · rcases q2 with ⟨rfl, rfl⟩ | ⟨n, n1, n2, rfl, rfl⟩
          · exact bicubic_has_coeffs it
          · exact (hc.sinc n it n1 n2 q1).1
      · have hcm : cm' = cm := by
          simp only [Checked, String.reduceEq, false_and, true_and, false_or, or_false] at hm1
          obtain ⟨_, _, _, hm1⟩ := hm1
          have hm1 : matchingCostCheck w.pandora (J.obj mc).convAll = .ok (cm, _, _, _) := hm1
          rw [q2, Except.ok.injEq, Prod.mk.injEq] at hm1
          exact hm1.1
        obtain ⟨-, g, hg1, hg2⟩ := mc_values q2
        obtain ⟨q5, q6⟩ := q4 _ _ _ _ _ q2 q3 (by rw [← hsr]; exact b1) (by rw [← hsc]; exact b2) _ _ hf d3 (fun he' => by
          have hb : givesEstimation p0 = false := by unfold givesEstimation; rw [he']
          rw [hb] at c2 d1 d5
          obtain ⟨-, -, -, -, dRow, dCol, i1, i2, -⟩ :=
            C75_pair_ok w.env w.files _ cin inp inp' readRoi w.check left right c2 hinp d1 d2 (d5 rfl)
          exact ⟨_, _, _, _, c2, hinp, i1, i2, region_made hcol hrow hroi i1 i2⟩)
          ⟨_, _, c2, hinp, fun _ _ i1 i2 => region_made hcol hrow hroi i1 i2⟩
        refine .opticalFlow half it e3 q1 ?_ (by rw [hsr, l2]; exact q5) (by rw [hsc, l2]; exact q6)
        rw [← hoff, ← hcm, hg1, hc.offset g wn _ hg2 q3]
        omega
  obtain ⟨mp, hmp, hsave⟩ := maps_forward l1 hpair (uniform_of_config _ _ _ _ _ _ l5) (uniform_of_config _ _ _ _ _ _ l6) b4 hsub b1 b2
    (by rw [l2]; exact d3) ⟨le_of_lt hne.1, le_of_lt hne.2.2.1⟩
    (by
      rcases l7 with ⟨e1, e2⟩ | l7
      · exact Or.inl ⟨by rw [hsr]; exact e1, by rw [hsc]; exact e2⟩
      · exact Or.inr l7) hrefinable
  have hrun : (Run.run w.run readRoi left right.img p.toPipeline
      ⟨m.state, m.transitions, { (Run.Attrs.init : Run.Attrs K) with margins := refinementMargins m.data }⟩).2 = .ok (some mp) := by
    have e1 : m.state = (fresh (Run.Attrs.init : Run.Attrs K)).state := by rw [hm]; rfl
    have e2 : m.transitions = (fresh (Run.Attrs.init : Run.Attrs K)).transitions := by rw [hm]; rfl
    rw [e1, e2]
    have := (C70_run_composes w.run readRoi left right.img p hr.named
      { (Run.Attrs.init : Run.Attrs K) with margins := refinementMargins m.data }).1
    rw [hmp] at this
    exact this
  -- the configuration
  have hpl1 : cfg1.get "pipeline" = some (.obj pl') := by rw [r2 _ (by decide)]; exact c8
  have hestKey : (∃ a b s, lookup p.toPipeline "estimation" = .ok (.estimation a b s)) → p0.get "estimation" ≠ none := by
    rintro ⟨a, b, s, hl⟩ e
    have hrefs : p.refinements = [] ∨ ∃ c, p.refinements = [("refinement", c)] := by
      cases hr' : p0.get "refinement" with
      | none => exact Or.inl (hr.noRefinement hr')
      | some v =>
        obtain ⟨_, c, -, -, e⟩ := hr.refinement v hr'
        exact Or.inr ⟨c, e⟩
    unfold Plan.toPipeline at hl
    rw [hr.estimation.1 e] at hl
    rcases hrefs with e | ⟨c', e⟩ <;> rw [e] at hl <;> simp [lookup] at hl
  obtain ⟨cfg3, hcfg3⟩ := completed_forward (w := w) (steps := p.toPipeline) (l := left.img) (r := right.img)
    (cfg := cfg1.set "input" (.obj inp')) (inp := inp') (pl := pl') (fun he => (hest (hestKey he)).1 left.img right.img)
    (by rw [Fields.get_set, if_pos rfl]) (by rw [Fields.get_set, if_neg (by decide)]; exact hpl1)
    (fun he => by
      obtain ⟨v, hv⟩ := Option.ne_none_iff_exists'.1 (hestKey he)
      obtain ⟨v', _, _, _, g, e1, rfl, -⟩ := hestv v hv
      exact ⟨g, e1⟩)
  have hlaunch : launch w m cfg = .ok ⟨some mp, readRoi, cfg3⟩ := by
    unfold launch
    simp only [item, c6, hinp, bind, Except.bind, asObj, hcol, hrow, hroi, hpl1, d1', d2, hsteps, hrun, hcfg3, pure, Except.pure]
  -- the files
  obtain ⟨hcm, -⟩ := completed_ok w _ _ _ _ _ hcfg3
  obtain ⟨g, x, y, g1, g2, g3, g4⟩ := hr.checked
  obtain ⟨pl3, k1, k2⟩ := hcm.pipeline pl' (by rw [Fields.get_set, if_neg (by decide)]; exact hpl1)
  have hstep : stepIn cfg3 = .ok (some (p.cfg.stepRow, p.cfg.stepCol)) :=
    stepIn_ok k1 (by rw [k2 _ (by decide)]; exact g1) g2 g3 g4
  have hsm : ∃ l, saveMaps w ⟨some mp, readRoi, cfg3⟩ = .ok l := by
    obtain ⟨o, ho⟩ := hsave (w.crs (leftOf cfg3)) (w.transform (leftOf cfg3))
    unfold saveMaps
    simp only [hstep, ho, bind, Except.bind, pure, Except.pure]
    exact ⟨_, rfl⟩
  obtain ⟨l, hsm⟩ := hsm
  unfold Main.main
  simp only [h, hlaunch, hsm]

/-- An accepted configuration with a disparity step runs to the end, the optical flow being without ROI or with steps of one. -/
theorem accepted_runs (w : World K) (user p0 mc cfg : Fields) (m : Mach (Machine.Attrs J Margins)) (H W : Nat)
    (rf rl cf cl : Int) (sr sc : Nat) (hw : user.wf) (hc : RunContract w H W) (hu : user.get "pipeline" = some (.obj p0))
    (hd : "disparity" ∈ p0.keys) (hmc : p0.get "matching_cost" = some (.obj mc)) (hst : StepIs mc sr sc)
    (hz : ZoneIs user H W rf rl cf cl) (hne : rf < rl ∧ rl < H ∧ cf < cl ∧ cl < W) (hest : EstimationOk w user p0)
    (href : RefinementOk w user p0 mc sr sc rf rl cf cl) (hcase : (sr = 1 ∧ sc = 1) ∨ p0.get "estimation" ≠ none ∨ RangesFlat w user m H W rf rl cf cl)
    (h : Config.checkConf w.env w.steps user (fresh .init) = (m, .ok cfg)) : (Main.main w user).2 = none := by
  refine accepted_runs_fits w user p0 mc cfg m H W rf rl cf cl sr sc hw hc hu hd hmc hst hz hne (hest.fits hw) ?_ hcase h
  intro v hv
  obtain ⟨f, rfl, hm | hm | ⟨hm, e1, e2⟩⟩ := href v hv
  · exact ⟨f, rfl, .inl hm⟩
  · exact ⟨f, rfl, .inr (.inl hm)⟩
  · refine ⟨f, rfl, .inr (.inr ⟨hm, ?_⟩)⟩
    intro c st wn mar half q2 q3 s1 s2 roi img hf d3 _ _
    obtain ⟨q5, q6⟩ := e2 _ _ _ _ _ q2 q3
    have hsize := zone_size_le d3 hne
    have hm : (rowMargin roi = none ∧ colMargin roi = none) ∨ (sr = 1 ∧ sc = 1) := by
      rcases e1 with e1 | e1
      · left
        cases roi with
        | none => exact ⟨rfl, rfl⟩
        | some R =>
          obtain ⟨v, hv, -⟩ := hf
          rw [e1] at hv
          simp at hv
      · exact .inr e1
    exact ⟨flowPoints_of_fits s1 (hm.imp And.left And.left) (q5.mono hsize.1),
      flowPoints_of_fits s2 (hm.imp And.right And.right) (q6.mono hsize.2)⟩

/-- C81: for every accepted configuration with a disparity step, of every world where images accepted by the check can be read: whatever
the ROI (of at least two rows and columns inside the image), the steps, the kind of initial disparities, the matching cost, the invalid
value, with an estimation or not, with an interpolation, a dichotomy or an optical flow or without refinement, `main` ends without
exception. Missing: the optical flow when the window does not fit (`C81_flow_small_false`), or with a ROI and steps other than one
(`C81_flow_roi_false`), the dichotomy with steps other than one (`C81_dichotomy_step_false`), grids of disparities with steps other than one (`C81_grid_step_false`), an estimation with
both a ROI and initial disparities which are null (`C81_estimation_null_false`) or of two kinds (`C81_estimation_mixed_false`), ROI of one
row or one column (`C75_one_row_false`), steps which are not integers (C73). -/
theorem C81_accepted_runs_partial (w : World K) (user p0 mc cfg : Fields) (m : Mach (Machine.Attrs J Margins)) (H W : Nat)
    (rf rl cf cl : Int) (sr sc : Nat) (hw : user.wf) (hc : RunContract w H W) (hu : user.get "pipeline" = some (.obj p0))
    (hd : "disparity" ∈ p0.keys) (hmc : p0.get "matching_cost" = some (.obj mc)) (hst : StepIs mc sr sc)
    (hz : ZoneIs user H W rf rl cf cl) (hne : rf < rl ∧ rl < H ∧ cf < cl ∧ cl < W) (hest : EstimationOk w user p0)
    (href : RefinementOk w user p0 mc sr sc rf rl cf cl) (hcase : (sr = 1 ∧ sc = 1) ∨ p0.get "estimation" ≠ none ∨ ConstantInits user)
    (h : Config.checkConf w.env w.steps user (fresh .init) = (m, .ok cfg)) : (Main.main w user).2 = none :=
  accepted_runs w user p0 mc cfg m H W rf rl cf cl sr sc hw hc hu hd hmc hst hz hne hest href
    (hcase.imp_right (Or.imp_right (constantInits_flat hw))) h

end Verif.Props
