import Verif.Props.FlowInvalid
import Verif.Props.RefinedWider

/-!
# C160: the invalid value and the disparities refined by a dichotomy
-/

namespace Verif.Props

open Verif Verif.Config Verif.Machine Verif.ImgTools Verif.MatchingCost Verif.Disparity Verif.Run Verif.Main Verif.Spec Verif.Save
  Verif.Statistics Verif.Dichotomy

set_option linter.unusedSectionVars false

variable {K : Type} [Field K] [LinearOrder K] [IsStrictOrderedRing K] [FloorRing K]

/-- A search from disparities which are neither invalid value is a search for both. -/
theorem searched_other {me : Measure} {cost val : K → K → F K} {k it : Nat} {lor hir loc hic : Int} {invalid invalid' row col score : F K} {x y : K}
    (h : SearchedPixel me cost val k it lor hir loc hic invalid (.fin x) (.fin y) row col score)
    (h1 : invalid ≠ .fin x ∧ invalid' ≠ .fin x) (h2 : invalid ≠ .fin y ∧ invalid' ≠ .fin y) :
    SearchedPixel me cost val k it lor hir loc hic invalid' (.fin x) (.fin y) row col score :=
  ⟨fun q => q.elim (fun q => absurd q.symm h1.2) fun q => absurd q.symm h2.2,
    fun _ _ e1 e2 _ _ => h.kept _ _ e1 e2 (Ne.symm h1.1) (Ne.symm h2.1), fun _ _ e1 e2 _ _ => h.searched _ _ e1 e2 (Ne.symm h1.1) (Ne.symm h2.1)⟩

/-- C160, for the pixels whose intervals hold no invalid value. Two successful executions with a dichotomy on the same full images, without estimation, with
the same intervals, subpixel factor, window cost, iterations and kernel, whatever their invalid values: at each pixel such that no invalid value is a number
of its intervals, the scores are the same, the row disparities are the same or each is its invalid value, and so are the column disparities. Missing: the
other pixels (`C160_false`). -/
theorem C160_invalid_dichotomy_partial (w : World K) (user user' p p' mc mc' inp inp' l r f f' : Fields) (out out' : List (Written K)) (H W : Nat)
    (dRow dCol : Disp) (invalid invalid' : F K) (n hw : Nat) (me : Measure) (ker : List (F K × F K) → F K) (it : Nat) (g : Kernel K)
    (wf : user.wf) (wf' : user'.wf)
    (hdisk : DiskContract w H W) (hpan : PandoraContract w) (hkeeps : PandoraKeeps w.pandora) (hzoom : w.run.zoom = zoomLinear)
    (cfg : Dichotomised w user p mc inp l r f H W dRow dCol invalid n hw me ker it g)
    (cfg' : Dichotomised w user' p' mc' inp' l r f' H W dRow dCol invalid' n hw me ker it g) (hHW : 2 ≤ H ∧ 2 ≤ W)
    (h : Main.main w user = (out, none)) (h' : Main.main w user' = (out', none)) :
    ∃ files rest files' rest', out = .rasters files :: rest ∧ out' = .rasters files' :: rest' ∧
      (∀ f ∈ [files.row, files.col, files.score], f.h = H ∧ f.w = W) ∧ (∀ f ∈ [files'.row, files'.col, files'.score], f.h = H ∧ f.w = W) ∧
      ∀ a < H, ∀ b < W,
        (∀ x : K, ((initAt dRow a b - dRow.range : Int) : K) ≤ x → x ≤ ((initAt dRow a b + dRow.range : Int) : K) →
          invalid ≠ .fin x ∧ invalid' ≠ .fin x) →
        (∀ y : K, ((initAt dCol a b - dCol.range : Int) : K) ≤ y → y ≤ ((initAt dCol a b + dCol.range : Int) : K) →
          invalid ≠ .fin y ∧ invalid' ≠ .fin y) →
        files'.score.values a b = files.score.values a b ∧ Marked invalid invalid' (files.row.values a b) (files'.row.values a b) ∧
          Marked invalid invalid' (files.col.values a b) (files'.col.values a b) := by
  obtain ⟨s⟩ := dichotomised_stages cfg wf hpan h
  obtain ⟨s'⟩ := dichotomised_stages cfg' wf' hpan h'
  obtain ⟨k, fr, lr, fc, lc, gmin, gmax, hk, -, ⟨sl, -⟩, o, ⟨x1, x2⟩, hg, z, key⟩ := s.dichotomised cfg wf hdisk hkeeps hzoom hHW
  obtain ⟨k', fr', lr', fc', lc', gmin', gmax', hk', -, ⟨sl', -⟩, o', ⟨x1', x2'⟩, hg', z', key'⟩ := s'.dichotomised cfg' wf' hdisk hkeeps hzoom hHW
  obtain ⟨er, el⟩ := s.read_images s' cfg.full cfg'.full cfg.noEstimation cfg'.noEstimation cfg.input cfg'.input cfg.left cfg'.left
    cfg.right cfg'.right wf wf'
  obtain rfl : k' = k := Nat.pow_right_injective (le_refl 2) (hk'.symm.trans hk)
  obtain ⟨rfl, rfl⟩ := extent_same sl sl' o o' (fun _ _ _ _ => ⟨rfl, rfl⟩) x1 x1'
  obtain ⟨rfl, rfl⟩ := extent_same sl sl' o o' (fun _ _ _ _ => ⟨rfl, rfl⟩) x2 x2'
  refine ⟨s.files, _, s'.files, _, s.outIs, s'.outIs, z, z', fun a ha b hb hr hc => ?_⟩
  obtain ⟨r0, c0, s0, cost, e1, b1, p1⟩ := key a ha b hb
  obtain ⟨r1, c1, s1, cost', e2, b2, p2⟩ := key' a ha b hb
  obtain ⟨g1, g2⟩ := hg a ha b hb
  obtain ⟨g1', g2'⟩ := hg' a ha b hb
  obtain rfl : cost' = cost := by
    funext x y
    rw [e1, e2, er, el]
    unfold Pandora.windowCost Pandora.windowOk
    rw [g1, g2, g1', g2']
  by_cases hex : ∃ x y, AskedPair dRow dCol n a b x y ∧ cost' x y ≠ .nan
  · obtain ⟨x, y, rfl, rfl, ⟨_, ⟨-, ⟨t1, t2⟩, -⟩, -⟩, ⟨_, ⟨-, -, t3, t4⟩, -⟩, -⟩ := b1.smallest hex
    have b2 : BestPair me (AskedPair dRow dCol n a b) cost' invalid r1 c1 s1 := ⟨fun q => by
      obtain ⟨u, v, u1, u2⟩ := hex
      exact absurd (q u v u1) u2, b2.best, b2.smallest⟩
    obtain ⟨rfl, rfl, -⟩ := BestPair.unique b1 b2
    obtain ⟨q1, q2, q3⟩ := searched_moved hk ⟨rfl, rfl⟩ ⟨rfl, rfl⟩ (fun _ _ _ => rfl) b1 p1 b2
      (searched_other p2 (hr x t1 t2).symm (hc y t3 t4).symm)
    exact ⟨q3, .inl q1, .inl q2⟩
  · have hex : ∀ x y, AskedPair dRow dCol n a b x y → cost' x y = .nan := fun x y q => by
      by_contra hc
      exact hex ⟨x, y, q, hc⟩
    obtain ⟨q1, q2, -⟩ := b1.invalid hex
    obtain ⟨q1', q2', -⟩ := b2.invalid hex
    obtain ⟨u1, u2, u3⟩ := p1.unusable (.inl q1)
    obtain ⟨u1', u2', u3'⟩ := p2.unusable (.inl q1')
    exact ⟨u3'.trans u3.symm, .inr ⟨u1.trans q1, u1'.trans q1'⟩, .inr ⟨u2.trans q2, u2'.trans q2'⟩⟩

/-! ## Example and disagreement -/

/-- Disparities from -1 to 1, a dichotomy and the invalid value `v`. -/
def exUserDichoMark (v : Int) : Fields := dict [("input", .obj (exInputBox 0 1)), ("pipeline", .obj (dict [
  ("matching_cost", .obj (dict [("matching_cost_method", .str "zncc"), ("window_size", .int 1),
    ("step", .arr (.cons (.int 1) (.cons (.int 1) .nil)))])),
  ("disparity", .obj (dict [("disparity_method", .str "wta"), ("invalid_disparity", .int v)])), ("refinement", exDichoOf 1)]))]

theorem exUserDichoMark_wf (v : Int) : (exUserDichoMark v).wf := by
  simp [exUserDichoMark, exInputBox, exL, exR, exDichoOf, dict, Fields.wf, J.wf, Fields.keys]

theorem exDichoMark_cfg (l r : Img ℚ) (v : Int) :
    ∃ p mc inp f, Dichotomised (exWorldImgs l r) (exUserDichoMark v) p mc inp exL exR f 6 6 ⟨.const 0, 1⟩ ⟨.const 0, 1⟩ (.fin (v : ℚ)) 1 1 .min sad 1
      keysKernel :=
  ⟨_, _, _, _, rfl, rfl, rfl, rfl, rfl, rfl, rfl, rfl, ⟨_, 1, rfl, .inl rfl, by omega⟩, ⟨_, rfl, .inl ⟨rfl, rfl⟩⟩, rfl,
    ⟨_, _, _, _, _, .int 1, rfl, rfl, rfl, .inl rfl, rfl, rfl⟩, 1, 1,
    ⟨⟨_, rfl, ⟨_, _, _, rfl, rfl, rfl, .inl rfl, .inl ⟨_, .inl rfl, rfl⟩⟩, ⟨_, _, _, rfl, rfl, rfl, .inl rfl, .inl ⟨_, .inl rfl, rfl⟩⟩⟩,
    .inr ⟨rfl, rfl, rfl, rfl, rfl⟩,
    ⟨_, _, _, rfl, rfl, rfl, .inl ⟨_, _, rfl, .inl rfl, .inl rfl⟩, .inl ⟨_, rfl, .inl ⟨_, .inl rfl, rfl⟩⟩⟩⟩⟩

theorem exDichoMark_runs {l r : Img ℚ} (hl : exSized l) (hr : exSized r) (v : Int) (hacc : accepted exWorldSixF (exUserDichoMark v) = true) :
    Main.main (exWorldImgs l r) (exUserDichoMark v) = ((Main.main (exWorldImgs l r) (exUserDichoMark v)).1, none) := by
  have : (Main.main (exWorldImgs l r) (exUserDichoMark v)).2 = none := by
    obtain ⟨m, cfg, h⟩ := accepted_ok hacc
    refine C81_accepted_runs_partial (exWorldImgs l r) _ _ _ cfg m 6 6 0 5 0 5 1 1 (exUserDichoMark_wf v) (exWorldImgs_contract hl hr) rfl
      (by simp [dict, Fields.keys])
      rfl (.inl ⟨_, _, rfl, .inl rfl, .inl rfl⟩) (.inr ⟨rfl, rfl, rfl, rfl, rfl⟩) (by omega) ?_ ?_ (.inl ⟨rfl, rfl⟩) h
    · intro he
      exact absurd rfl he
    · intro v hv
      have : v = exDichoOf 1 := (Option.some.inj hv).symm
      subst this
      exact ⟨_, rfl, .inr (.inl ⟨rfl, rfl, rfl⟩)⟩
  exact Prod.ext rfl this

/-- Whatever the images of six rows and columns: with the invalid values 4 and -9999, outside the disparities from -1 to 1, all the pixels have the same
scores and the same disparities, or the invalid values. -/
example (l r : Img ℚ) (hl : exSized l) (hr : exSized r) : ∃ files rest files' rest',
    Main.main (exWorldImgs l r) (exUserDichoMark 4) = (.rasters files :: rest, none) ∧
    Main.main (exWorldImgs l r) (exUserDichoMark (-9999)) = (.rasters files' :: rest', none) ∧
    ∀ a < 6, ∀ b < 6, files'.score.values a b = files.score.values a b ∧
      Marked (.fin 4) (.fin (-9999)) (files.row.values a b) (files'.row.values a b) ∧
      Marked (.fin 4) (.fin (-9999)) (files.col.values a b) (files'.col.values a b) := by
  obtain ⟨_, _, _, _, cfg⟩ := exDichoMark_cfg l r 4
  obtain ⟨_, _, _, _, cfg'⟩ := exDichoMark_cfg l r (-9999)
  have ct := exWorldImgs_contract hl hr
  have h1 := exDichoMark_runs hl hr 4 (by decide +kernel)
  have h2 := exDichoMark_runs hl hr (-9999) (by decide +kernel)
  obtain ⟨files, rest, files', rest', o, o', -, -, key⟩ := C160_invalid_dichotomy_partial _ _ _ _ _ _ _ _ _ _ _ _ _ _ _ 6 6 _ _ _ _ _ _ _ _ _ _
    (exUserDichoMark_wf _) (exUserDichoMark_wf _) ct.disk ct.pandora ct.keeps rfl cfg cfg' (by decide) h1 h2
  have e1 : (.fin ((4 : Int) : ℚ) : F ℚ) = .fin 4 := by norm_num
  have e2 : (.fin ((-9999 : Int) : ℚ) : F ℚ) = .fin (-9999) := by norm_num
  rw [e1, e2] at key
  have out : ∀ x : ℚ, (((0 : Int) - 1 : Int) : ℚ) ≤ x → x ≤ (((0 : Int) + 1 : Int) : ℚ) → (.fin 4 : F ℚ) ≠ .fin x ∧ (.fin (-9999) : F ℚ) ≠ .fin x := by
    intro x h1 h2
    norm_num at h1 h2
    simp only [ne_eq, F.fin.injEq]
    constructor <;> intro q <;> linarith
  exact ⟨files, rest, files', rest', by rw [h1]; exact congrArg (·, none) o, by rw [h2]; exact congrArg (·, none) o',
    fun a ha b hb => key a ha b hb out out⟩

/-- The full statement: at every pixel the scores are the same, or each is its invalid value. -/
def C160Statement : Prop := ∀ (w : World ℚ) (user user' p p' mc mc' inp inp' l r f f' : Fields) (out out' : List (Written ℚ)) (H W : Nat)
    (dRow dCol : Disp) (invalid invalid' : F ℚ) (n hw : Nat) (me : Measure) (ker : List (F ℚ × F ℚ) → F ℚ) (it : Nat) (g : Kernel ℚ),
    user.wf → user'.wf → DiskContract w H W → PandoraContract w → PandoraKeeps w.pandora → w.run.zoom = zoomLinear →
    Dichotomised w user p mc inp l r f H W dRow dCol invalid n hw me ker it g →
    Dichotomised w user' p' mc' inp' l r f' H W dRow dCol invalid' n hw me ker it g → 2 ≤ H ∧ 2 ≤ W →
    Main.main w user = (out, none) → Main.main w user' = (out', none) →
    ∃ files rest files' rest', out = .rasters files :: rest ∧ out' = .rasters files' :: rest' ∧
      ∀ a < H, ∀ b < W, Marked invalid invalid' (files.score.values a b) (files'.score.values a b)

/-- The pixel of row 2 and column 2 is one row below in the right image. With the invalid value 1, its score is NaN. -/
theorem exDichoMark_pixel (v : Int) (d : F ℚ) (hv : (v = 1 ∧ d = .nan) ∨ (v = -9999 ∧ d = .fin 0)) {p mc inp f : Fields} {out : List (Written ℚ)}
    (cfg : Dichotomised (exWorldImgs (exImgSix exBump) (exImgSix exBumpDown)) (exUserDichoMark v) p mc inp exL exR f 6 6 ⟨.const 0, 1⟩ ⟨.const 0, 1⟩
      (.fin (v : ℚ)) 1 1 .min sad 1 keysKernel)
    (h : Main.main (exWorldImgs (exImgSix exBump) (exImgSix exBumpDown)) (exUserDichoMark v) = (out, none)) :
    ∃ files rest, out = .rasters files :: rest ∧ files.score.values 2 2 = d := by
  have sz : ∀ g, exSized (exImgSix g) := fun g => ⟨⟨rfl, rfl⟩, rfl, rfl⟩
  have ct := exWorldImgs_contract (sz exBump) (sz exBumpDown)
  obtain ⟨s⟩ := dichotomised_stages cfg (exUserDichoMark_wf v) ct.pandora h
  obtain ⟨k, fr, lr, fc, lc, gmin, gmax, -, im, ⟨sl, -⟩, o, ⟨x1, x2⟩, hg, -, key⟩ :=
    s.dichotomised cfg (exUserDichoMark_wf v) ct.disk ct.keeps rfl (by decide)
  obtain ⟨el, er⟩ : s.left.img = exImgSix exBump ∧ s.right.img = exImgSix exBumpDown := exWorldImgs_images im
  refine ⟨s.files, _, s.outIs, ?_⟩
  obtain ⟨r0, c0, s0, cost, e1, b1, p1⟩ := key 2 (by decide) 2 (by decide)
  obtain ⟨g1, g2⟩ := hg 2 (by decide) 2 (by decide)
  rw [el, er] at e1
  have ht : Translated (exImgSix exBump) (exImgSix exBumpDown) 1 0 := by
    intro a b a' b' _ _ _ _ e1 e2
    obtain rfl : a' = a + 1 := by omega
    obtain rfl : b' = b := by omega
    simp [exImgSix, exLeftImg, exBumpDown]
  have hb : BothInside 1 (exImgSix exBump) (exImgSix exBumpDown) 1 0 2 2 := by simp only [BothInside, exImgSix]; decide
  have hcl : CleanWindow 1 (exImgSix exBump) (exImgSix exBumpDown).noData 2 2 := by
    refine ⟨fun x y _ _ _ _ => ⟨⟨_, rfl⟩, ?_, rfl⟩, rfl⟩
    simp only [exImgSix, exLeftImg, exBump, ne_eq, F.fin.injEq]
    have : (0 : ℚ) ≤ x := Nat.cast_nonneg x
    have : (0 : ℚ) ≤ y := Nat.cast_nonneg y
    have : (0 : ℚ) ≤ (x : ℚ) * y := by positivity
    intro h
    linarith
  have hgc : gmin.get 2 2 ≤ 0 ∧ (0 : Int) ≤ gmax.get 2 2 := by
    rw [g1, g2]
    simp only [initAt]
    omega
  obtain rfl : cost = fun x y => Pandora.windowCost 1 sad (exImgSix exBump) (slabImg zoomLinear (exImgSix exBumpDown) 1 x) gmin gmax 2 2 y := by
    funext x y
    exact e1 x y
  obtain ⟨-, t2⟩ := translated_best (left := exImgSix exBump) (right := exImgSix exBumpDown) (a := 2) (b := 2) (dr := 1) (dc := 0)
    sad_dissimilarity sad_onlyEqual b1 hgc ht hb hcl ⟨⟨by decide, by decide⟩, by decide, by decide⟩
  obtain ⟨rfl, rfl⟩ := t2 rfl (by
    rintro dr dc ⟨⟨h1, h2⟩, h3, h4⟩ hne
    refine ⟨2, 2, by decide, by decide, fun x y hx hy _ _ => ?_⟩
    have hx : (x : Int) = 2 + dr := hx
    have hy : (y : Int) = 2 + dc := hy
    simp only [initAt] at h1 h2 h3 h4
    have hne : ¬ (dr = 1 ∧ dc = 0) := fun q => hne (by rw [q.1, q.2])
    have l1 : x < 6 := by omega
    have l2 : y < 6 := by omega
    have l3 : ¬ (x = 3 ∧ y = 2) := by omega
    have : ∀ x < 6, ∀ y < 6, ¬ (x = 3 ∧ y = 2) → exBump 2 2 ≠ exBumpDown x y := by decide +kernel
    exact (this x l1 y l2 l3).symm)
  rcases hv with ⟨rfl, rfl⟩ | ⟨rfl, rfl⟩
  · exact (p1.unusable (.inl rfl)).2.2
  · rw [(p1.kept _ _ rfl rfl (by norm_num) (by norm_num) (.inl (.inl (.inr rfl)))).2.2]
    unfold seen
    have hu : UniformDisp ⟨.const 0, 1⟩ 6 6 := fun _ _ _ _ _ _ _ _ => rfl
    rw [if_pos ⟨uniform_read sl o hu x1 (by decide) (by decide) _, uniform_read sl o hu x2 (by decide) (by decide) _⟩]
    beta_reduce
    rw [slab_int]
    exact window_zero sad_dissimilarity ht hb hcl hgc

/-- With the invalid value -9999 the pixel has the score 0, with the invalid value 1 it has the score NaN. -/
theorem C160_false : ¬ C160Statement := by
  intro hst
  have sz : ∀ g, exSized (exImgSix g) := fun g => ⟨⟨rfl, rfl⟩, rfl, rfl⟩
  obtain ⟨_, _, _, _, cfg⟩ := exDichoMark_cfg (exImgSix exBump) (exImgSix exBumpDown) 1
  obtain ⟨_, _, _, _, cfg'⟩ := exDichoMark_cfg (exImgSix exBump) (exImgSix exBumpDown) (-9999)
  have ct := exWorldImgs_contract (sz exBump) (sz exBumpDown)
  have h1 := exDichoMark_runs (sz exBump) (sz exBumpDown) 1 (by decide +kernel)
  have h2 := exDichoMark_runs (sz exBump) (sz exBumpDown) (-9999) (by decide +kernel)
  obtain ⟨files, rest, files', rest', o, o', key⟩ := hst _ _ _ _ _ _ _ _ _ _ _ _ _ _ _ 6 6 _ _ _ _ _ _ _ _ _ _
    (exUserDichoMark_wf _) (exUserDichoMark_wf _) ct.disk ct.pandora ct.keeps rfl cfg cfg' (by decide) h1 h2
  obtain ⟨f1, _, o1, e1⟩ := exDichoMark_pixel 1 _ (.inl ⟨rfl, rfl⟩) cfg h1
  obtain ⟨f2, _, o2, e2⟩ := exDichoMark_pixel (-9999) _ (.inr ⟨rfl, rfl⟩) cfg' h2
  rw [o1] at o
  rw [o2] at o'
  obtain ⟨rfl, -⟩ : f1 = files ∧ _ := by simpa using o
  obtain ⟨rfl, -⟩ : f2 = files' ∧ _ := by simpa using o'
  have := key 2 (by decide) 2 (by decide)
  rw [e1, e2] at this
  simp [Marked] at this

end Verif.Props
