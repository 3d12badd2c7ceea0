import Verif.Lemmas.Common
import Verif.Spec.Masking

/-!
# Property C08: masking by the disparity range of each pixel
-/

namespace Verif.Props

open Verif Verif.Common Verif.Spec

variable {K : Type} [LinearOrder K] {α : Type}

theorem outMask_iff (d lo hi : K) (g : Option (K × K)) (hw : Within lo hi g) :
    outMask d lo hi g = true ↔ Outside d lo hi ∧ InGlobal d g := by
  rcases g with _ | ⟨g0, g1⟩
  · simp only [outMask, Outside, InGlobal, Bool.or_eq_true, decide_eq_true_eq, and_true]
    rw [not_and_or, not_le, not_le]
  · obtain ⟨h1, h2, h3, h4⟩ := hw
    simp only [outMask, Outside, InGlobal, Bool.or_eq_true, Bool.and_eq_true, decide_eq_true_eq]
    rw [not_and_or, not_le, not_le]
    constructor
    · rintro (⟨a, b⟩ | ⟨a, b⟩)
      · exact ⟨Or.inl a, b, le_trans (le_of_lt a) h2⟩
      · exact ⟨Or.inr a, le_trans h3 (le_of_lt a), b⟩
    · rintro ⟨a | a, b, c⟩
      · exact Or.inl ⟨a, b⟩
      · exact Or.inr ⟨a, c⟩

open Classical in
/-- C08 (rows): `set_out_of_row_disparity_range_to_other_value` succeeds when the grids have the shape of the volume, keeps
the shape, writes `value` exactly in the cells whose row disparity is outside the range of their pixel (and inside the
global range when one is given) and leaves every other cell unchanged. -/
theorem C08_row_masking_exact (data : Arr4 α) (dispRow : Arr1 K) (gmin gmax : Arr2 K) (value : α) (g : Option (K × K))
    (hh : gmin.h = data.n0) (hw : gmin.w = data.n1)
    (hg : ∀ r < data.n0, ∀ c < data.n1, Within (gmin.get r c) (gmax.get r c) g) :
    ∃ out, setOutOfRow data dispRow gmin gmax value g = .ok out ∧
      (out.n0 = data.n0 ∧ out.n1 = data.n1 ∧ out.n2 = data.n2 ∧ out.n3 = data.n3) ∧
      ∀ r < data.n0, ∀ c < data.n1, ∀ i < data.n2, ∀ j < data.n3,
        out.get r c i j =
          if Outside (dispRow.get j) (gmin.get r c) (gmax.get r c) ∧ InGlobal (dispRow.get j) g then value
          else data.get r c i j := by
  obtain ⟨out, ho, hs, hp⟩ := setOutOfRow_go dispRow gmin gmax value g data.n3 data (by
    rintro j - ⟨r, c⟩ hm
    rw [mem_masking] at hm
    omega)
  refine ⟨out, ho, hs, fun r hr c hc i _ j hj => ?_⟩
  rw [hp r c i j]
  apply if_congr _ rfl rfl
  rw [mem_masking, outMask_iff _ _ _ _ (hg r hr c hc)]
  constructor
  · exact fun h => h.2.2
  · exact fun h => ⟨hj, ⟨by omega, by omega⟩, h⟩

open Classical in
/-- C08 (columns): same for `set_out_of_col_disparity_range_to_other_value`. -/
theorem C08_col_masking_exact (data : Arr4 α) (dispCol : Arr1 K) (gmin gmax : Arr2 K) (value : α) (g : Option (K × K))
    (hh : gmin.h = data.n0) (hw : gmin.w = data.n1)
    (hg : ∀ r < data.n0, ∀ c < data.n1, Within (gmin.get r c) (gmax.get r c) g) :
    ∃ out, setOutOfCol data dispCol gmin gmax value g = .ok out ∧
      (out.n0 = data.n0 ∧ out.n1 = data.n1 ∧ out.n2 = data.n2 ∧ out.n3 = data.n3) ∧
      ∀ r < data.n0, ∀ c < data.n1, ∀ i < data.n2, ∀ j < data.n3,
        out.get r c i j =
          if Outside (dispCol.get i) (gmin.get r c) (gmax.get r c) ∧ InGlobal (dispCol.get i) g then value
          else data.get r c i j := by
  obtain ⟨out, ho, hs, hp⟩ := setOutOfCol_go dispCol gmin gmax value g data.n2 data (by
    rintro j - ⟨r, c⟩ hm
    rw [mem_masking] at hm
    omega)
  refine ⟨out, ho, hs, fun r hr c hc i hi j _ => ?_⟩
  rw [hp r c i j]
  apply if_congr _ rfl rfl
  rw [mem_masking, outMask_iff _ _ _ _ (hg r hr c hc)]
  constructor
  · exact fun h => h.2.2
  · exact fun h => ⟨hi, ⟨by omega, by omega⟩, h⟩

/-- Error branch of C08: with grids larger than the volume, a masked cell of the grid that is not in the volume raises
`IndexError` instead of being ignored. -/
theorem C08_row_masking_index_error (data : Arr4 α) (dispRow : Arr1 K) (gmin gmax : Arr2 K) (value : α)
    (r c j : Nat) (hj : j < data.n3) (hr : r < gmin.h) (hc : c < gmin.w) (hout : ¬ (r < data.n0 ∧ c < data.n1))
    (ho : Outside (dispRow.get j) (gmin.get r c) (gmax.get r c)) :
    setOutOfRow data dispRow gmin gmax value none = .error .indexError := by
  apply setRow_error
  refine ⟨j, hj, (r, c), ?_, hout⟩
  rw [mem_masking, outMask_iff _ _ _ none trivial]
  exact ⟨⟨hr, hc⟩, ho, trivial⟩

/-! ### Non-vacuity -/

/-- 1 x 2 pixels, row disparities -1, 0, 1, global range [-1, 1], pixel ranges [-1, 0] and [0, 1]. -/
def exGmin : Arr2 ℤ := ⟨1, 2, fun _ c => if c = 0 then -1 else 0⟩
def exGmax : Arr2 ℤ := ⟨1, 2, fun _ c => if c = 0 then 0 else 1⟩
def exVol : Arr4 Nat := ⟨1, 2, 1, 4, fun _ _ _ _ => 7⟩

example : ∀ r < exVol.n0, ∀ c < exVol.n1, Within (exGmin.get r c) (exGmax.get r c) (some (-1, 1)) := by
  intro r _ c _
  simp only [Within, exGmin, exGmax]
  split <;> simp

/-- the disparities -2 … 1: -2 is out of the global range and kept, -1 is masked at pixel 1, 1 at pixel 0 -/
example : ((setOutOfRow exVol ⟨4, fun j => (j : ℤ) - 2⟩ exGmin exGmax 0 (some (-1, 1))).toOption.map fun o =>
    (List.range 4).map fun j => (o.get 0 0 0 j, o.get 0 1 0 j)) = some [(7, 7), (7, 0), (7, 7), (0, 7)] := by decide

example : setOutOfRow (⟨1, 1, 1, 1, fun _ _ _ _ => 7⟩ : Arr4 Nat) ⟨1, fun _ => (-1 : ℤ)⟩ exGmin exGmax 0 none
    = .error .indexError :=
  C08_row_masking_index_error _ _ _ _ _ 0 1 0 (by decide) (by decide) (by decide) (by decide)
    (by simp [Outside, exGmin, exGmax])

end Verif.Props
