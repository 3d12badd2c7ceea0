import Verif.Props.MatchingCost

/-!
# Property C76: resampling along the columns
-/

namespace Verif.Spec

open Verif Verif.ImgTools

/-- Linear interpolation of the row `r` of an image at the column `c + f`, `0 < f < 1`. -/
def lerpCol {K : Type} [Field K] [LinearOrder K] (img : Img K) (r c : Nat) (f : K) : F K :=
  F.add (F.mul (.fin (1 - f)) (img.im r c)) (F.mul (.fin f) (img.im r (c + 1)))

/-- The image with rows and columns exchanged. -/
def transposed {K : Type} (img : Img K) : Img K :=
  ⟨img.w, img.h, img.col0, img.row0, fun r c => img.im c r, img.msk.map fun m r c => m c r, img.noData, img.validPixels, img.noDataMask⟩

end Verif.Spec

namespace Verif.Props

open Verif Verif.ImgTools Verif.Spec

set_option linter.unusedSectionVars false

variable {K : Type} [Field K] [LinearOrder K] [IsStrictOrderedRing K] [FloorRing K]

/-- The images resampled by `k / s`. -/
theorem shiftSubpixCol_ok (img : Img K) (s : Nat) (hs : 0 < s) (hw : 0 < img.w) :
    ∃ l, shiftSubpixCol img s = .ok l ∧ l.length = s ∧ l[0]? = some img ∧ ∀ k, 0 < k → k < s → l[k]? = some
      { img with
        im := fun r t => if t < img.w - 1 then zoomLinearCol img s r (k + t * s) else img.noData
        msk := none } := by
  unfold shiftSubpixCol
  rw [MatchingCost.mapM_ok (fun k => colZoom img s (k + 1)) (fun k => { img with
        im := fun r t => if t < img.w - 1 then zoomLinearCol img s r (k + 1 + t * s) else img.noData
        msk := none })]
  · refine ⟨_, rfl, by simp; omega, rfl, ?_⟩
    intro i h0 hi
    rcases i with _ | i
    · omega
    · rw [List.getElem?_cons_succ, List.getElem?_map, List.getElem?_range (by omega)]
      rfl
  · intro k hk
    rw [List.mem_range] at hk
    unfold colZoom
    simp only
    rw [zoomCount_eq hw (by omega) (by omega), if_pos (by omega)]

/-- C76: for every image which is not empty and every subpixel factor, `shift_subpix_img(row=False)` gives `subpix` images of the same
size: the image itself, then for each `k` the image sampled at the columns `c + k / subpix` by linear interpolation, with no-data in the
last column. -/
theorem C76_columns_sampled (img : Img K) (s : Nat) (hs : 0 < s) (hw : 0 < img.w) :
    ∃ imgs, shiftSubpixCol img s = .ok imgs ∧ imgs.length = s ∧ imgs[0]? = some img ∧ ∀ k, 0 < k → k < s →
      ∃ x, imgs[k]? = some x ∧ x.h = img.h ∧ x.w = img.w ∧ x.noData = img.noData ∧ ∀ r c,
        (c + 1 < img.w → x.im r c = lerpCol img r c ((k : K) / s)) ∧ (c + 1 = img.w → x.im r c = img.noData) := by
  obtain ⟨l, e, h1, h2, h3⟩ := shiftSubpixCol_ok img s hs hw
  refine ⟨l, e, h1, h2, fun k hk hks => ⟨_, h3 k hk hks, rfl, rfl, rfl, fun r c => ⟨fun hc => ?_, fun hc => ?_⟩⟩⟩
  · simp only
    rw [if_pos (by omega)]
    unfold zoomLinearCol lerpCol
    rw [Nat.add_mul_mod_self_right, Nat.mod_eq_of_lt hks, if_neg (by omega), Nat.add_mul_div_right _ _ hs,
      Nat.div_eq_of_lt hks, Nat.zero_add]
  · simp only
    rw [if_neg (by omega)]

/-- C76: the images resampled along the columns are the transposes of the images resampled along the rows of the transpose. -/
theorem C76_transpose (img : Img K) (s k r c : Nat) (hs : 0 < s) (hw : 0 < img.w) (hk : k < s) :
    ∃ a b x y, shiftSubpixCol img s = .ok a ∧ shiftSubpix zoomLinear (transposed img) s = .ok b ∧ a[k]? = some x ∧ b[k]? = some y ∧
      x.im r c = y.im c r := by
  obtain ⟨l, e, -, h2, h3⟩ := shiftSubpixCol_ok img s hs hw
  obtain ⟨l', e', h'⟩ := MatchingCost.shiftSubpix_ok zoomLinear (transposed img) s hw
  rcases Nat.eq_zero_or_pos k with rfl | h0
  · exact ⟨l, l', _, _, e, e', h2, h' 0 hk, rfl⟩
  · refine ⟨l, l', _, _, e, e', h3 k h0 hk, h' k hk, ?_⟩
    unfold MatchingCost.zoomed
    rw [if_neg (by omega)]
    rfl

/-- Test: the row 7, 8, 0 (no-data -1) sampled at the columns 1/2, 3/2. -/
example : (shiftSubpixCol (⟨1, 3, 0, 0, fun _ c => .fin ([7, 8, 0].getD c 0), none, .fin (-1), 0, 1⟩ : Img ℚ) 2).toOption.map
    (fun l => l.map fun x => (List.range 3).map (x.im 0)) =
    some [[.fin 7, .fin 8, .fin 0], [.fin (15 / 2), .fin 4, .fin (-1)]] := by decide +kernel

end Verif.Props
