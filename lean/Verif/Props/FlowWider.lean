import Verif.Props.RefinedWider
import Verif.Spec.FlowWider

/-!
# C141: larger intervals with an optical flow
-/

namespace Verif.Props

open Verif Verif.Config Verif.Machine Verif.ImgTools Verif.MatchingCost Verif.Disparity Verif.Run Verif.Main Verif.Spec Verif.Save
  Verif.OpticalFlow

set_option linter.unusedSectionVars false

variable {K : Type} [Field K] [LinearOrder K] [IsStrictOrderedRing K] [FloorRing K]

/-- The same end of a trajectory, kept with two nested intervals. -/
theorem inside_nested {lo hi lo' hi' : Int} {invalid t : F K} (h : lo' ≤ lo ∧ hi ≤ hi') :
    SameOrOutside lo hi lo' hi' invalid (insideOr invalid lo hi t) (insideOr invalid lo' hi' t) := by
  have c1 : (lo' : K) ≤ lo := Int.cast_le.2 h.1
  have c2 : (hi : K) ≤ hi' := Int.cast_le.2 h.2
  unfold SameOrOutside insideOr
  cases t with
  | fin k =>
    simp only [F.le, decide_eq_true_eq]
    by_cases a : k ≤ (lo : K) ∨ (hi : K) ≤ k
    · rw [if_pos a]
      by_cases b : k ≤ (lo' : K) ∨ (hi' : K) ≤ k
      · rw [if_pos b]; exact .inl rfl
      · rw [if_neg b]
        push Not at b
        exact .inr ⟨rfl, k, rfl, a, b.1, b.2⟩
    · rw [if_neg a, if_neg (by push Not at a ⊢; exact ⟨lt_of_le_of_lt c1 a.1, lt_of_lt_of_le a.2 c2⟩)]
      exact .inl rfl
  | _ => simp [F.le]

/-- Two executions whose users give the same sections for the images, without region of interest, read the same images. -/
theorem Stages.flow_images {w : World K} {user user' p p' mc mc' inp inp' l r f f' : Fields} {out out' : List (Written K)} {H W : Nat}
    {dRow dCol dRow' dCol' : Disp} {sr sc sr' sc' : Nat} {invalid invalid' : F K} {n hw n' hw' : Nat} {me me' : Measure}
    {ker ker' : List (F K × F K) → F K} {it half it' half' : Nat}
    (s : Stages w user p out) (s' : Stages w user' p' out')
    (cfg : Flowed w user p mc inp l r f H W dRow dCol sr sc invalid n hw me ker it half)
    (cfg' : Flowed w user' p' mc' inp' l r f' H W dRow' dCol' sr' sc' invalid' n' hw' me' ker' it' half') (wf : user.wf) (wf' : user'.wf) :
    s'.right.img = s.right.img ∧ s'.left.img = s.left.img :=
  s.read_images s' cfg.full cfg'.full cfg.noEstimation cfg'.noEstimation cfg.input cfg'.input cfg.left cfg'.left cfg.right cfg'.right wf wf'

/-- C141: larger intervals with an optical flow. Two successful executions on the same full images, without estimation, with the same steps, subpixel
factor, window cost, invalid value, half window and iterations; at each pixel the intervals of the first execution are in those of the second. At each
pixel where all the best pairs of the larger intervals are in the smaller ones, the score is the same, and each refined disparity is the same unless it is
invalid with the smaller interval and, with the larger one, a number which is not strictly inside the smaller one. -/
theorem C141_wider_flow (w : World K) (user user' p p' mc mc' inp inp' l r f f' : Fields) (out out' : List (Written K))
    (H W : Nat) (dRow dCol dRow' dCol' : Disp) (sr sc : Nat) (invalid : F K) (n hw : Nat) (me : Measure) (ker : List (F K × F K) → F K) (it half : Nat)
    (wf : user.wf) (wf' : user'.wf)
    (hdisk : DiskContract w H W) (hpan : PandoraContract w) (hkeeps : PandoraKeeps w.pandora) (hoff : OffsetContract w) (hzoom : w.run.zoom = zoomLinear)
    (cfg : Flowed w user p mc inp l r f H W dRow dCol sr sc invalid n hw me ker it half)
    (cfg' : Flowed w user' p' mc' inp' l r f' H W dRow' dCol' sr sc invalid n hw me ker it half)
    (hr : Nested dRow dRow' H W) (hc : Nested dCol dCol' H W)
    (h : Main.main w user = (out, none)) (h' : Main.main w user' = (out', none)) :
    ∃ files rest files' rest' left right, ∃ moved : K → Img K, out = .rasters files :: rest ∧ out' = .rasters files' :: rest' ∧
      ImagesRead w l r none left right ∧ (∀ x : K, (∃ a : Int, x * (n : K) = (a : K)) → Displaced (moved x) right x) ∧
      (right.noData ≠ .nan → ∀ a b, ∀ x y : Int, freeCost hw ker left moved a b x y = wholeCost hw ker left right a b x y) ∧
      (∀ f ∈ [files.row, files.col, files.score], (∀ i, i < f.h ↔ i * sr < H) ∧ ∀ j, j < f.w ↔ j * sc < W) ∧
      (∀ f ∈ [files'.row, files'.col, files'.score], (∀ i, i < f.h ↔ i * sr < H) ∧ ∀ j, j < f.w ↔ j * sc < W) ∧
      ∀ i j a b : Nat, a = i * sr → b = j * sc → a < H → b < W →
        (∀ x y, IsBestPair me dRow' dCol' n a b (freeCost hw ker left moved a b) x y → AskedPair dRow dCol n a b x y) →
        files'.score.values i j = files.score.values i j ∧
        SameOrOutside (initAt dRow a b - dRow.range) (initAt dRow a b + dRow.range) (initAt dRow' a b - dRow'.range) (initAt dRow' a b + dRow'.range) invalid
          (files.row.values i j) (files'.row.values i j) ∧
        SameOrOutside (initAt dCol a b - dCol.range) (initAt dCol a b + dCol.range) (initAt dCol' a b - dCol'.range) (initAt dCol' a b + dCol'.range) invalid
          (files.col.values i j) (files'.col.values i j) := by
  obtain ⟨s⟩ := flowed_stages cfg wf hpan h
  obtain ⟨s'⟩ := flowed_stages cfg' wf' hpan h'
  obtain ⟨⟨hn, hh⟩, im, ⟨⟨s1, s2⟩, s3, s4⟩, ⟨z1, z2⟩, z, key⟩ := s.flowRasters cfg wf hdisk hkeeps hoff
  obtain ⟨-, im', ⟨⟨s1', s2'⟩, s3', s4'⟩, ⟨z1', z2'⟩, z', key'⟩ := s'.flowRasters cfg' wf' hdisk hkeeps hoff
  obtain ⟨er, el⟩ := s.flow_images s' cfg cfg' wf wf'
  rw [hzoom] at key key'
  rw [er, el] at key'
  refine ⟨s.files, _, s'.files, _, s.left.img, s.right.img, slabImg zoomLinear s.right.img n, s.outIs, s'.outIs, im,
    fun x hx => slab_displaced _ _ hn _ hx, fun hnd a b x y => free_whole hnd, z, z', ?_⟩
  rintro i j _ _ rfl rfl bi bj hbest
  obtain ⟨gmin, gmax, g, r0, c0, b1, p1, q1⟩ := key i (((z _ List.mem_cons_self).1 i).2 bi) j (((z _ List.mem_cons_self).2 j).2 bj)
  obtain ⟨gmin', gmax', g', r1, c1, b2, p2, q2⟩ := key' i (((z' _ List.mem_cons_self).1 i).2 bi) j (((z' _ List.mem_cons_self).2 j).2 bj)
  have ir := hr (i * sr : Nat) (j * sc : Nat) (by omega) (by omega) (by omega) (by omega)
  have ic := hc (i * sr : Nat) (j * sc : Nat) (by omega) (by omega) (by omega) (by omega)
  generalize i * sr = a at *
  generalize j * sc = b at *
  have cast : ∀ {u v : Int}, u ≤ v → (u : K) ≤ (v : K) := fun h => Int.cast_le.2 h
  obtain ⟨e3, e⟩ := best_nested (me := me) (n := n) (r := (a : Int)) (c := (b : Int)) (invalid := invalid)
    (free := freeCost hw ker s.left.img (slabImg zoomLinear s.right.img n) a b)
    (fun x y ⟨h1, ⟨h2, h3⟩, h4, h5⟩ => ⟨h1, ⟨(cast ir.1).trans h2, h3.trans (cast ir.2)⟩, (cast ic.1).trans h4, h5.trans (cast ic.2)⟩)
    (fun x y q => free_window (g y q.2.2.1 q.2.2.2)) (fun x y q => free_window (g' y q.2.2.1 q.2.2.2)) hbest b1 b2
  have e1 : r1 = r0 ∧ c1 = c0 := by
    rcases e with ⟨i1, i2, i3, i4⟩ | ⟨i1, i2, -⟩
    · exact ⟨i3.trans i1.symm, i4.trans i2.symm⟩
    · exact ⟨i1, i2⟩
  obtain ⟨rfl, rfl⟩ := e1
  refine ⟨e3, ?_⟩
  by_cases hi : InnerPoint 0 H sr half (a : Int) ∧ InnerPoint 0 W sc half (b : Int)
  · obtain ⟨u, v, k1, k2, t, k3, k4, k5⟩ := p1 hi
    obtain ⟨u', v', k1', k2', t', k3', k4', k5'⟩ := p2 hi
    obtain rfl := startShift_unique k1 k1'
    obtain rfl := startShift_unique k2 k2'
    rw [← k3] at k3'
    rw [k4, k5, k4', k5', k3']
    exact ⟨inside_nested ir, inside_nested ic⟩
  · obtain ⟨k1, k2⟩ := q1 hi
    obtain ⟨k1', k2'⟩ := q2 hi
    rw [k1, k2, k1', k2']
    exact ⟨.inl rfl, .inl rfl⟩

/-- The pixel of row 2 and column 2 of images where one pair of disparities only has a cost, with intervals of one then two pixels on each side. -/
example (v : F ℚ) (nd : ℚ) : ∃ files rest files' rest',
    Main.main (exWorldImgs (exFlagged v fun x y => .fin ((x : ℚ) * y)) (exHoled (.fin nd) exBelow fun _ _ => .fin 0)) (exUserFlowFull 0 1) =
      (.rasters files :: rest, none) ∧
    Main.main (exWorldImgs (exFlagged v fun x y => .fin ((x : ℚ) * y)) (exHoled (.fin nd) exBelow fun _ _ => .fin 0)) (exUserFlowFull 0 2) =
      (.rasters files' :: rest', none) ∧
    files'.score.values 2 2 = files.score.values 2 2 ∧ SameOrOutside (-1) 1 (-2) 2 .nan (files.row.values 2 2) (files'.row.values 2 2) ∧
      SameOrOutside (-1) 1 (-2) 2 .nan (files.col.values 2 2) (files'.col.values 2 2) := by
  set fl : Nat → Nat → F ℚ := fun x y => .fin ((x : ℚ) * y) with hfl
  set fr : Nat → Nat → F ℚ := fun _ _ => .fin 0 with hfr
  have sl : exSized (exFlagged v fl) := ⟨⟨rfl, rfl⟩, rfl, rfl⟩
  have sr : exSized (exHoled (.fin nd) exBelow fr) := ⟨⟨rfl, rfl⟩, rfl, rfl⟩
  obtain ⟨_, _, _, _, cfg⟩ := exImgs_flowed (exFlagged v fl) (exHoled (.fin nd) exBelow fr) 1
  obtain ⟨_, _, _, _, cfg'⟩ := exImgs_flowed (exFlagged v fl) (exHoled (.fin nd) exBelow fr) 2
  have ct := exWorldImgs_contract sl sr
  have h1 := exImgs_runsFlow sl sr 1 (by decide +kernel)
  have h2 := exImgs_runsFlow sl sr 2 (by decide +kernel)
  obtain ⟨files, rest, files', rest', left, right, moved, o, o', im, -, free, -, -, key⟩ := C141_wider_flow _ _ _ _ _ _ _ _ _ _ _ _ _ _ _ 6 6
    _ _ _ _ _ _ _ _ _ _ _ _ _ (exUserFlowFull_wf 0 1) (exUserFlowFull_wf 0 2) ct.disk ct.pandora ct.keeps ct.offset rfl cfg cfg'
    (by intro a b _ _ _ _; simp [initAt]) (by intro a b _ _ _ _; simp [initAt]) h1 h2
  obtain ⟨rfl, rfl⟩ := exWorldImgs_images im
  have k := key 2 2 2 2 rfl rfl (by decide) (by decide) ?_
  · exact ⟨files, rest, files', rest', by rw [h1]; exact congrArg (·, none) o, by rw [h2]; exact congrArg (·, none) o', k⟩
  · rintro x y ⟨q1, q2, -⟩
    obtain ⟨⟨a, b, hx, hy⟩, ⟨c1, c2⟩, c3, c4⟩ := q1
    rw [Nat.cast_one, mul_one] at hx hy
    subst hx hy
    rw [free (by simp [exHoled])] at q2
    have hcmp : Comparable 1 (exFlagged v fl) (exHoled (.fin nd) exBelow fr) 2 2 a b := by
      by_contra hc
      exact q2 (if_neg hc)
    have reach : Reaches 1 sad (exFlagged v fl) (exHoled (.fin nd) exBelow fr) ⟨.const 0, 2⟩ ⟨.const 0, 2⟩ 2 2
        (sad (wholePairs 1 (exFlagged v fl) (exHoled (.fin nd) exBelow fr) 2 2 a b)) a b := by
      refine ⟨?_, hcmp, rfl⟩
      simp only [initAt] at c1 c2 c3 c4
      exact ⟨⟨by exact_mod_cast c1, by exact_mod_cast c2⟩, by exact_mod_cast c3, by exact_mod_cast c4⟩
    obtain ⟨rfl, rfl⟩ := (exBelow_only v nd _ ⟨a, b, reach⟩ a b).1 reach
    exact ⟨⟨1, 0, by norm_num, by norm_num⟩, by simp [initAt], by simp [initAt]⟩

end Verif.Props
