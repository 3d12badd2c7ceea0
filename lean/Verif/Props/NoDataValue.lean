import Verif.Spec.NoDataValue
import Verif.Props.Symmetry

/-!
# C112: the no-data value
-/

namespace Verif.Props

open Verif Verif.Config Verif.Machine Verif.ImgTools Verif.MatchingCost Verif.Disparity Verif.Run Verif.Main Verif.Spec Verif.Save
  Verif.Statistics

set_option linter.unusedSectionVars false

variable {K : Type} [Field K] [LinearOrder K] [IsStrictOrderedRing K] [FloorRing K]

section
variable {hw : Nat} {left right left' right' : Img K} {a b : Nat} {u v : Int}

theorem comparable_nodata (hl : OtherFlagged left left') (hr : OtherNoData right right') (sl : left'.h = left.h ∧ left'.w = left.w)
    (sr : right'.h = right.h ∧ right'.w = right.w) : Comparable hw left' right' a b u v ↔ Comparable hw left right a b u v := by
  obtain ⟨l1, l2⟩ := sl
  obtain ⟨r1, r2⟩ := sr
  have hin : BothInside hw left' right' u v a b ↔ BothInside hw left right u v a b := by unfold BothInside; rw [l1, l2, r1, r2]
  constructor
  · rintro ⟨b1, b2, b3, b4⟩
    have bi := hin.1 b1
    obtain ⟨⟨c1, c2, c3, c4⟩, c5, c6, c7, c8⟩ := bi
    refine ⟨hin.1 b1, fun x y x1 x2 y1 y2 => ?_, ?_, fun x y x1 x2 y1 y2 => ?_⟩
    · rw [← hl.flags x (by omega) y (by omega)]
      exact b2 x y x1 x2 y1 y2
    · rw [← hl.valid a (by omega) b (by omega)]
      exact b3
    · exact fun e => b4 x y x1 x2 y1 y2 ((hr.held x (by omega) y (by omega)).2 e)
  · rintro ⟨b1, b2, b3, b4⟩
    have bi := b1
    obtain ⟨⟨c1, c2, c3, c4⟩, c5, c6, c7, c8⟩ := bi
    refine ⟨hin.2 b1, fun x y x1 x2 y1 y2 => ?_, ?_, fun x y x1 x2 y1 y2 => ?_⟩
    · rw [hl.flags x (by omega) y (by omega)]
      exact b2 x y x1 x2 y1 y2
    · rw [hl.valid a (by omega) b (by omega)]
      exact b3
    · exact fun e => b4 x y x1 x2 y1 y2 ((hr.held x (by omega) y (by omega)).1 e)

theorem pairs_nodata (hl : OtherFlagged left left') (hr : OtherNoData right right') (h : Comparable hw left right a b u v) :
    wholePairs hw left' right' a b u v = wholePairs hw left right a b u v := by
  obtain ⟨⟨⟨c1, c2, c3, c4⟩, c5, c6, c7, c8⟩, b2, b3, b4⟩ := h
  unfold wholePairs
  refine List.flatMap_congr fun x hx => List.map_congr_left fun y hy => ?_
  rw [List.mem_range] at hx hy
  rw [hl.values _ (by omega) _ (by omega) (b2 _ _ (by omega) (by omega) (by omega) (by omega)),
    hr.values _ (by omega) _ (by omega) (b4 _ _ (by omega) (by omega) (by omega) (by omega))]

end

/-- C112: the values of the no-data pixels do not matter. Two successful executions on full images, without estimation nor refinement, with
disparities of whole pixels, the same window cost and the same intervals. The left images have the same masks and only differ by the values
of the pixels flagged as no-data. The right images have each a no-data value, held by the same pixels, and the other pixels are equal. At each
pixel of both rasters the disparities and the score are the same, except that each execution has its own invalid value. Missing from the full
claim: disparities of fractions of pixels, with which it is false (`C112_false`). -/
theorem C112_nodata_value_partial (w w' : World K) (user user' p p' mc mc' inp inp' l r l' r' : Fields) (out out' : List (Written K))
    (H W : Nat) (dRow dCol dRow' dCol' : Disp) (sr sc sr' sc' : Nat) (invalid invalid' : F K) (hw : Nat) (me : Measure)
    (ker : List (F K × F K) → F K) (wf : user.wf) (wf' : user'.wf)
    (hdisk : DiskContract w H W) (hpan : PandoraContract w) (hkeeps : PandoraKeeps w.pandora)
    (hdisk' : DiskContract w' H W) (hpan' : PandoraContract w') (hkeeps' : PandoraKeeps w'.pandora)
    (cfg : OnFullImages w user p mc inp l r H W dRow dCol sr sc invalid 1 hw me ker)
    (cfg' : OnFullImages w' user' p' mc' inp' l' r' H W dRow' dCol' sr' sc' invalid' 1 hw me ker)
    (hnd : ∀ left right, ImagesRead w l r none left right → right.noData ≠ .nan)
    (hnd' : ∀ left right, ImagesRead w' l' r' none left right → right.noData ≠ .nan)
    (himg : ∀ left right left' right', ImagesRead w l r none left right → ImagesRead w' l' r' none left' right' →
      OtherFlagged left left' ∧ OtherNoData right right')
    (ir : ∀ x < H, ∀ y < W, SameIntervalMoved dRow dRow' x y x y) (ic : ∀ x < H, ∀ y < W, SameIntervalMoved dCol dCol' x y x y)
    (h : Main.main w user = (out, none)) (h' : Main.main w' user' = (out', none)) :
    ∃ files rest files' rest', out = .rasters files :: rest ∧ out' = .rasters files' :: rest' ∧
      (∀ f ∈ [files.row, files.col, files.score], (∀ i, i < f.h ↔ i * sr < H) ∧ ∀ j, j < f.w ↔ j * sc < W) ∧
      (∀ f ∈ [files'.row, files'.col, files'.score], (∀ i, i < f.h ↔ i * sr' < H) ∧ ∀ j, j < f.w ↔ j * sc' < W) ∧
      ∀ i j i' j' : Nat, i < files.row.h → j < files.row.w → i' < files'.row.h → j' < files'.row.w → i' * sr' = i * sr → j' * sc' = j * sc →
        SamePixel invalid invalid' (files.row.values i j) (files.col.values i j) (files.score.values i j)
          (files'.row.values i' j') (files'.col.values i' j') (files'.score.values i' j') := by
  obtain ⟨files, rest, left, right, o, im, ⟨⟨s1, s2⟩, s3, s4⟩, z, key⟩ := whole_chosen cfg wf hdisk hpan hkeeps hnd h
  obtain ⟨files', rest', left', right', o', im', ⟨⟨s1', s2'⟩, s3', s4'⟩, z', key'⟩ := whole_chosen cfg' wf' hdisk' hpan' hkeeps' hnd' h'
  obtain ⟨gl', gr'⟩ := himg _ _ _ _ im im'
  refine ⟨files, rest, files', rest', o, o', z, z', fun i j i' j' hi hj hi' hj' e1 e2 => ?_⟩
  have bi : i * sr < H := ((z _ List.mem_cons_self).1 i).1 hi
  have bj : j * sc < W := ((z _ List.mem_cons_self).2 j).1 hj
  have k' := key' i' hi' j' hj'
  rw [e1, e2] at k'
  obtain ⟨r1, r2⟩ := ir _ bi _ bj
  obtain ⟨c1, c2⟩ := ic _ bi _ bj
  refine chosen_same (key i hi j hj) k' fun t u v => ?_
  have hi' : InIntervals dRow' dCol' ((i * sr : Nat) : Int) ((j * sc : Nat) : Int) u v ↔
      InIntervals dRow dCol ((i * sr : Nat) : Int) ((j * sc : Nat) : Int) u v := by unfold InIntervals; rw [r1, r2, c1, c2]
  unfold Reaches
  rw [hi', comparable_nodata gl' gr' (by omega) (by omega)]
  refine and_congr_right fun _ => and_congr_right fun q => ?_
  rw [pairs_nodata gl' gr' q]

/-! ## Examples -/

/-- Images of three rows and three columns without mask, with their no-data values. -/
def exImgNd (nd : F ℚ) (f : Nat → Nat → F ℚ) : Img ℚ := { exLeftImg with h := 3, im := f, noData := nd }

/-- The images of the example: the right image holds its no-data value on its first pixel. -/
noncomputable def exWorldNd (nd : F ℚ) (fl fr : Nat → Nat → F ℚ) : World ℚ :=
  { exWorldV with files := { exWorldV.files with read := fun s roi =>
      let img := if isLeftSection s then exImgNd nd fl else exImgNd nd fun x y => if x = 0 ∧ y = 0 then nd else fr x y
      match roi with
      | none => .ok img
      | some R => .ok (cropImg img R) } }

theorem exWorldNd_contract (nd : F ℚ) (fl fr : Nat → Nat → F ℚ) : RunContract (exWorldNd nd fl fr) 3 3 := by
  obtain ⟨⟨d1, d2, d3, d4, d5⟩, p, k, r, a, o, i, s⟩ := exWorldV_contract
  refine ⟨⟨d1, d2, d3, ?_, ?_⟩, ⟨p.1, p.2⟩, k, ?_, fun _ _ _ _ => rfl, o, i, s⟩
  · intro v img h
    simp only [exWorldNd, Except.ok.injEq] at h
    subst h
    split_ifs <;> exact ⟨rfl, rfl, rfl, rfl⟩
  · intro v R img h h1 h2 h3
    simp only [exWorldNd, Except.ok.injEq] at h
    subst h
    have key : ∀ i : Img ℚ, i.h = 3 → i.w = 3 → CropOk (cropImg i R) R 3 3 := by
      intro i hi hi'
      refine ⟨h1, h2, h3, rfl, rfl, ?_, ?_⟩
      · simp only [cropImg, hi]; push_cast at *; omega
      · simp only [cropImg, hi']; push_cast at *; omega
    split_ifs
    · exact key _ rfl rfl
    · exact key _ rfl rfl
  · intro inp l r _ _ _ roi _
    cases roi with
    | none => exact ⟨_, _, rfl, rfl⟩
    | some R => exact ⟨_, _, rfl, rfl⟩

theorem exWorldNd_runs (nd : F ℚ) (fl fr : Nat → Nat → F ℚ) (sub : Int) (hs : sub = 1 ∨ sub = 2) :
    Main.main (exWorldNd nd fl fr) (exUserSub 1 sub (.int (-1))) = ((Main.main (exWorldNd nd fl fr) (exUserSub 1 sub (.int (-1)))).1, none) := by
  have : (Main.main (exWorldNd nd fl fr) (exUserSub 1 sub (.int (-1)))).2 = none := by
    obtain ⟨m, cfg, h⟩ := accepted_ok (w := exWorldP) (user := exUserSub 1 sub (.int (-1))) (by rcases hs with rfl | rfl <;> decide +kernel)
    refine (C99_runs_exactly (exWorldNd nd fl fr) _ _ _ cfg m 3 3 1 1 (exUserSub_wf _ _ _ (by simp [J.wf])) (exWorldNd_contract nd fl fr) rfl ?_ rfl
      (.inl ⟨_, _, rfl, .inl rfl, .inl rfl⟩) rfl ⟨by decide, by decide⟩ (fun _ _ _ _ => ⟨_, _, rfl⟩) h).2 ⟨.inl ⟨rfl, rfl⟩, ?_⟩
    · simp [dict, Fields.keys]
    · intro f hf
      simp [dict, Fields.get] at hf
  exact Prod.ext rfl this

theorem exWorldNd_images (nd : F ℚ) (fl fr : Nat → Nat → F ℚ) (left right : Img ℚ) (h : ImagesRead (exWorldNd nd fl fr) exL exR none left right) :
    left = exImgNd nd fl ∧ right = exImgNd nd fun x y => if x = 0 ∧ y = 0 then nd else fr x y := by
  obtain ⟨lj, rj, k1, k2, h1, h2⟩ := h
  have g1 := k1 "img" _ rfl rfl
  have g2 := k2 "img" _ rfl rfl
  simp only [exWorldNd, Except.ok.injEq] at h1 h2
  have e1 : isLeftSection (.obj lj) = true := by simp [isLeftSection, g1, readValue]
  have e2 : isLeftSection (.obj rj) = false := by simp [isLeftSection, g2, readValue]
  rw [e1, if_pos rfl] at h1
  rw [e2, if_neg (by decide)] at h2
  exact ⟨h1.symm, h2.symm⟩

theorem exWorldNd_full (nd : F ℚ) (fl fr : Nat → Nat → F ℚ) (n : Nat) (hn : n = 1 ∨ n = 2) :
    ∃ p inp, OnFullImages (exWorldNd nd fl fr) (exUserSub 1 n (.int (-1))) p (exMc 1 n) inp exL exR 3 3 ⟨.const (-1), 1⟩ ⟨.const (-1), 1⟩ 1 1 .nan
      n 0 .min sad := by
  refine ⟨_, _, rfl, rfl, rfl, rfl, rfl, rfl, rfl, rfl, ?_,
    ⟨⟨_, rfl, ⟨_, _, _, rfl, rfl, rfl, .inl rfl, .inl ⟨_, .inl rfl, rfl⟩⟩, ⟨_, _, _, rfl, rfl, rfl, .inl rfl, .inl ⟨_, .inl rfl, rfl⟩⟩⟩,
    .inr ⟨rfl, rfl, rfl, rfl, rfl⟩,
    ⟨_, _, _, rfl, rfl, rfl, .inl ⟨_, _, rfl, .inl rfl, .inl rfl⟩, .inl ⟨_, rfl, .inr (.inr (.inl ⟨rfl, rfl⟩))⟩⟩⟩⟩
  rcases hn with rfl | rfl
  · exact ⟨_, _, _, _, _, .int 1, rfl, rfl, rfl, .inl rfl, rfl, rfl⟩
  · exact ⟨_, _, _, _, _, .int 2, rfl, rfl, rfl, .inl rfl, rfl, rfl⟩

theorem exWorldNd_other (nd nd' : F ℚ) (fl fr : Nat → Nat → F ℚ) (h : ∀ x y, fr x y ≠ nd) (h' : ∀ x y, fr x y ≠ nd') (left right left' right' : Img ℚ)
    (im : ImagesRead (exWorldNd nd fl fr) exL exR none left right) (im' : ImagesRead (exWorldNd nd' fl fr) exL exR none left' right') :
    OtherFlagged left left' ∧ OtherNoData right right' := by
  obtain ⟨rfl, rfl⟩ := exWorldNd_images _ _ _ _ _ im
  obtain ⟨rfl, rfl⟩ := exWorldNd_images _ _ _ _ _ im'
  refine ⟨⟨fun _ _ _ _ => rfl, fun _ _ _ _ => rfl, fun _ _ _ _ _ => rfl⟩, fun x _ y _ => ?_, fun x _ y _ q => ?_⟩
  · simp only [exImgNd]
    split_ifs <;> simp [h, h']
  · simp only [exImgNd] at q ⊢
    split_ifs at q ⊢ with g
    · exact absurd rfl q
    · rfl

/-- The no-data value `-1` or `-500` on the first pixel of the right image. -/
example (fl fr : Nat → Nat → F ℚ) (h : ∀ x y, fr x y ≠ .fin (-1)) (h' : ∀ x y, fr x y ≠ .fin (-500)) : ∃ files rest files' rest',
    Main.main (exWorldNd (.fin (-1)) fl fr) (exUserSub 1 1 (.int (-1))) = (.rasters files :: rest, none) ∧
    Main.main (exWorldNd (.fin (-500)) fl fr) (exUserSub 1 1 (.int (-1))) = (.rasters files' :: rest', none) ∧
    ∀ i < 3, ∀ j < 3, SamePixel .nan .nan (files.row.values i j) (files.col.values i j) (files.score.values i j)
      (files'.row.values i j) (files'.col.values i j) (files'.score.values i j) := by
  obtain ⟨p, inp, cfg⟩ := exWorldNd_full (.fin (-1)) fl fr 1 (.inl rfl)
  obtain ⟨p', inp', cfg'⟩ := exWorldNd_full (.fin (-500)) fl fr 1 (.inl rfl)
  have r := exWorldNd_runs (.fin (-1)) fl fr 1 (.inl rfl)
  have r' := exWorldNd_runs (.fin (-500)) fl fr 1 (.inl rfl)
  have ct := exWorldNd_contract (.fin (-1)) fl fr
  have ct' := exWorldNd_contract (.fin (-500)) fl fr
  obtain ⟨files, rest, files', rest', o, o', z, z', key⟩ := C112_nodata_value_partial _ _ _ _ _ _ _ _ _ _ _ _ _ _ _ _
    3 3 _ _ _ _ 1 1 1 1 _ _ 0 .min sad
    (exUserSub_wf _ _ _ (by simp [J.wf])) (exUserSub_wf _ _ _ (by simp [J.wf])) ct.disk ct.pandora ct.keeps ct'.disk ct'.pandora ct'.keeps
    cfg cfg' (fun left right h => by obtain ⟨rfl, rfl⟩ := exWorldNd_images _ _ _ _ _ h; simp [exImgNd])
    (fun left right h => by obtain ⟨rfl, rfl⟩ := exWorldNd_images _ _ _ _ _ h; simp [exImgNd])
    (exWorldNd_other _ _ fl fr h h') (fun _ _ _ _ => ⟨rfl, rfl⟩) (fun _ _ _ _ => ⟨rfl, rfl⟩) r r'
  have b := z _ List.mem_cons_self
  have b' := z' _ List.mem_cons_self
  exact ⟨files, rest, files', rest', by rw [r]; exact congrArg (·, none) o, by rw [r']; exact congrArg (·, none) o', fun i hi j hj =>
    key i j i j ((b.1 i).2 (by omega)) ((b.2 j).2 (by omega)) ((b'.1 _).2 (by omega)) ((b'.2 _).2 (by omega)) rfl rfl⟩

/-- A right image of value 100, except its first pixel. -/
def exRightNd (nd : F ℚ) : Img ℚ := exImgNd nd fun x y => if x = 0 ∧ y = 0 then nd else .fin 100

/-- A left image whose value is between 100 and a no-data value of `-1`. -/
def exLeftNd (nd : F ℚ) : Img ℚ := exImgNd nd fun _ _ => .fin (99 / 2)

theorem exNd_costs (gmin gmax : Arr2 Int) (nd : F ℚ) (x y : ℚ) (hxy : AskedPair ⟨.const (-1), 1⟩ ⟨.const (-1), 1⟩ 2 1 0 x y)
    (hn : Pandora.windowCost 0 sad (exLeftNd nd) (slabImg zoomLinear (exRightNd nd) 2 x) gmin gmax 1 0 y ≠ .nan) :
    ∃ k : Int, (-4 ≤ k ∧ k ≤ 0) ∧ x = k / 2 ∧
      Pandora.noDataAt (slabImg zoomLinear (exRightNd nd) 2 x) 1 0 = false ∧
      Pandora.windowCost 0 sad (exLeftNd nd) (slabImg zoomLinear (exRightNd nd) 2 x) gmin gmax 1 0 y =
        sad [(.fin (99 / 2), (slabImg zoomLinear (exRightNd nd) 2 x).im 1 0)] := by
  obtain ⟨⟨k, k', hk, -⟩, ⟨r1, r2⟩, -, c2⟩ := hxy
  simp only [initAt] at r1 r2 c2
  unfold Pandora.windowCost at hn ⊢
  split_ifs at hn ⊢ with ho
  · obtain ⟨-, ⟨o1, -⟩, -, -, o2, -⟩ := ho
    rw [Nat.cast_zero, Nat.cast_zero, zero_add, Int.le_floor, Int.cast_zero] at o1
    obtain rfl : y = 0 := le_antisymm (by simpa using c2) o1
    refine ⟨k, ⟨?_, ?_⟩, by rw [← hk]; simp, ?_, ?_⟩
    · have : ((-4 : Int) : ℚ) ≤ k := by rw [← hk]; push_cast at r1 ⊢; linarith
      exact_mod_cast this
    · have : (k : ℚ) ≤ ((0 : Int) : ℚ) := by rw [← hk]; push_cast at r2 ⊢; linarith
      exact_mod_cast this
    · simpa using o2 0 (by decide) 0 (by simp) (by simp)
    · simp [Pandora.windowPairs, Pandora.sampleCol, exLeftNd, exImgNd]
  · exact absurd rfl hn

/-- With a no-data value of `-500`, all the costs are positive. -/
theorem exNd_positive (gmin gmax : Arr2 Int) (x y : ℚ) (hxy : AskedPair ⟨.const (-1), 1⟩ ⟨.const (-1), 1⟩ 2 1 0 x y)
    (hn : Pandora.windowCost 0 sad (exLeftNd (.fin (-500))) (slabImg zoomLinear (exRightNd (.fin (-500))) 2 x) gmin gmax 1 0 y ≠ .nan) :
    F.le (Pandora.windowCost 0 sad (exLeftNd (.fin (-500))) (slabImg zoomLinear (exRightNd (.fin (-500))) 2 x) gmin gmax 1 0 y) (.fin 0) = false := by
  obtain ⟨k, ⟨k1, k2⟩, rfl, h1, h2⟩ := exNd_costs gmin gmax _ x y hxy hn
  rw [h2]
  have hk : k = -4 ∨ k = -3 ∨ k = -2 ∨ k = -1 ∨ k = 0 := by omega
  clear hxy hn h2 k1 k2
  rcases hk with rfl | rfl | rfl | rfl | rfl <;> revert h1 <;> decide +kernel

/-- With a no-data value of `-1`, the row between the no-data pixel and the pixel below has the cost zero. -/
theorem exNd_zero (gmin gmax : Arr2 Int) (h1 : gmin.get 1 0 = -2) (h2 : gmax.get 1 0 = 0) :
    Pandora.windowCost 0 sad (exLeftNd (.fin (-1))) (slabImg zoomLinear (exRightNd (.fin (-1))) 2 (-1 / 2)) gmin gmax 1 0 0 = .fin 0 := by
  unfold Pandora.windowCost
  rw [if_pos]
  · have : Pandora.windowPairs 0 (exLeftNd (.fin (-1))) (slabImg zoomLinear (exRightNd (.fin (-1))) 2 (-1 / 2)) 1 0 (((0 : Nat) : ℚ) + 0) =
        [(.fin (99 / 2), (slabImg zoomLinear (exRightNd (.fin (-1))) 2 (-1 / 2)).im 1 0)] := by
      simp [Pandora.windowPairs, Pandora.sampleCol, exLeftNd, exImgNd]
    rw [this]
    decide +kernel
  · refine ⟨by decide, ⟨by simp, by simp [slabImg, shiftDispRow, zoomed, exRightNd, exImgNd, exLeftImg]; split_ifs <;> simp⟩, ⟨by rw [h1]; norm_num, by rw [h2]; norm_num⟩,
      fun _ _ _ _ => rfl, fun a ha x h3 h4 => ?_, rfl, ?_, ?_⟩
    · simp at h3 h4
      obtain rfl : a = 0 := by omega
      subst h4
      decide +kernel
    · simp; decide +kernel
    · simp; decide +kernel

/-- The full claim of C112 is false of the code: the rows of the right image between two rows are interpolated from the no-data values, so that
the no-data values `-1` and `-500` give different scores. -/
theorem C112_false : ¬ ∀ (w w' : World ℚ) (user user' p p' mc mc' inp inp' l r l' r' : Fields) (out out' : List (Written ℚ))
    (H W : Nat) (dRow dCol dRow' dCol' : Disp) (sr sc sr' sc' : Nat) (invalid invalid' : F ℚ) (n hw : Nat) (me : Measure)
    (ker : List (F ℚ × F ℚ) → F ℚ), user.wf → user'.wf →
    DiskContract w H W → PandoraContract w → PandoraKeeps w.pandora → DiskContract w' H W → PandoraContract w' → PandoraKeeps w'.pandora →
    w.run.zoom = zoomLinear → w'.run.zoom = zoomLinear →
    OnFullImages w user p mc inp l r H W dRow dCol sr sc invalid n hw me ker →
    OnFullImages w' user' p' mc' inp' l' r' H W dRow' dCol' sr' sc' invalid' n hw me ker →
    (∀ left right, ImagesRead w l r none left right → right.noData ≠ .nan) →
    (∀ left right, ImagesRead w' l' r' none left right → right.noData ≠ .nan) →
    (∀ left right left' right', ImagesRead w l r none left right → ImagesRead w' l' r' none left' right' →
      OtherFlagged left left' ∧ OtherNoData right right') →
    (∀ x < H, ∀ y < W, SameIntervalMoved dRow dRow' x y x y) → (∀ x < H, ∀ y < W, SameIntervalMoved dCol dCol' x y x y) →
    Main.main w user = (out, none) → Main.main w' user' = (out', none) →
    ∃ files rest files' rest', out = .rasters files :: rest ∧ out' = .rasters files' :: rest' ∧
      ∀ i j i' j' : Nat, i < files.row.h → j < files.row.w → i' < files'.row.h → j' < files'.row.w → i' * sr' = i * sr → j' * sc' = j * sc →
        SamePixel invalid invalid' (files.row.values i j) (files.col.values i j) (files.score.values i j)
          (files'.row.values i' j') (files'.col.values i' j') (files'.score.values i' j') := by
  intro hst
  set fl : Nat → Nat → F ℚ := fun _ _ => .fin (99 / 2) with hfl
  set fr : Nat → Nat → F ℚ := fun _ _ => .fin 100 with hfr
  obtain ⟨p, inp, cfg⟩ := exWorldNd_full (.fin (-1)) fl fr 2 (.inr rfl)
  obtain ⟨p', inp', cfg'⟩ := exWorldNd_full (.fin (-500)) fl fr 2 (.inr rfl)
  have r := exWorldNd_runs (.fin (-1)) fl fr 2 (.inr rfl)
  have r' := exWorldNd_runs (.fin (-500)) fl fr 2 (.inr rfl)
  have ct := exWorldNd_contract (.fin (-1)) fl fr
  have ct' := exWorldNd_contract (.fin (-500)) fl fr
  have wf : (exUserSub 1 2 (.int (-1))).wf := exUserSub_wf _ _ _ (by simp [J.wf])
  obtain ⟨files, rest, files', rest', o, o', key⟩ := hst _ _ _ _ _ _ _ _ _ _ _ _ _ _ _ _ 3 3 _ _ _ _ 1 1 1 1 _ _ 2 0 .min sad wf wf
    ct.disk ct.pandora ct.keeps ct'.disk ct'.pandora ct'.keeps rfl rfl cfg cfg'
    (fun left right h => by obtain ⟨rfl, rfl⟩ := exWorldNd_images _ _ _ _ _ h; simp [exImgNd])
    (fun left right h => by obtain ⟨rfl, rfl⟩ := exWorldNd_images _ _ _ _ _ h; simp [exImgNd])
    (exWorldNd_other _ _ fl fr (fun _ _ => show F.fin (100 : ℚ) ≠ .fin (-1) by decide +kernel)
      (fun _ _ => show F.fin (100 : ℚ) ≠ .fin (-500) by decide +kernel)) (fun _ _ _ _ => ⟨rfl, rfl⟩) (fun _ _ _ _ => ⟨rfl, rfl⟩) r r'
  obtain ⟨-, files1, rest1, left, right, o1, im, -, z, k⟩ := full_rasters cfg wf ct.disk ct.pandora ct.keeps r
  obtain ⟨-, files2, rest2, left', right', o2, im', -, z', k'⟩ := full_rasters cfg' wf ct'.disk ct'.pandora ct'.keeps r'
  obtain ⟨rfl, rfl⟩ := exWorldNd_images _ _ _ _ _ im
  obtain ⟨rfl, rfl⟩ := exWorldNd_images _ _ _ _ _ im'
  rw [o, List.cons.injEq, Written.rasters.injEq] at o1
  rw [o', List.cons.injEq, Written.rasters.injEq] at o2
  obtain ⟨rfl, -⟩ := o1
  obtain ⟨rfl, -⟩ := o2
  have b := z _ List.mem_cons_self
  have b' := z' _ List.mem_cons_self
  obtain ⟨gmin, gmax, ⟨g1, g2⟩, k1⟩ := k 1 ((b.1 _).2 (by decide)) 0 ((b.2 _).2 (by decide))
  obtain ⟨gmin', gmax', -, k2⟩ := k' 1 ((b'.1 _).2 (by decide)) 0 ((b'.2 _).2 (by decide))
  have zero := exNd_zero gmin gmax g1 g2
  have asked : AskedPair ⟨.const (-1), 1⟩ ⟨.const (-1), 1⟩ 2 1 0 (-1 / 2 : ℚ) 0 :=
    ⟨⟨-1, 0, by norm_num, by norm_num⟩, ⟨by simp only [initAt]; norm_num, by simp only [initAt]; norm_num⟩, by simp only [initAt]; norm_num,
      by simp only [initAt]; norm_num⟩
  obtain ⟨⟨hs, -⟩, hb⟩ := k1.best ⟨-1 / 2, 0, asked, fun e => absurd (zero.symm.trans e) (by simp)⟩
  have low : F.le (files.score.values 1 0) (.fin 0) = true := hb _ ⟨by simp, _, _, asked, zero⟩
  rcases key 1 0 1 0 ((b.1 _).2 (by decide)) ((b.2 _).2 (by decide)) ((b'.1 _).2 (by decide)) ((b'.2 _).2 (by decide)) rfl rfl with
    q | ⟨-, -, q⟩
  · exact hs q.2.2.1
  · by_cases he : ∃ x y : ℚ, AskedPair ⟨.const (-1), 1⟩ ⟨.const (-1), 1⟩ 2 1 0 x y ∧
        Pandora.windowCost 0 sad (exLeftNd (.fin (-500))) (slabImg zoomLinear (exRightNd (.fin (-500))) 2 x) gmin' gmax' 1 0 y ≠ .nan
    · obtain ⟨⟨hs', x, y, a1, a2⟩, -⟩ := k2.best he
      have pos := exNd_positive gmin' gmax' x y a1 (fun e => hs' (a2.symm.trans e))
      have e : Pandora.windowCost 0 sad (exLeftNd (.fin (-500))) (slabImg zoomLinear (exRightNd (.fin (-500))) 2 x) gmin' gmax' 1 0 y =
        files'.score.values 1 0 := a2
      rw [e, ← q, low] at pos
      exact absurd pos (by decide)
    · push Not at he
      exact hs (q.trans (k2.invalid he).2.2)

end Verif.Props
