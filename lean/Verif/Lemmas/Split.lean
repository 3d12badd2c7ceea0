import Verif.Model.Disparity

/-! `np.array_split` tiles the axis, and the block-wise loops compute the elementwise reduction. -/

namespace Verif

/-- The chunks tile `[s, n)` in order. -/
def Tiling (n : Nat) : Nat → List (Nat × Nat) → Prop
  | s, [] => s = n
  | s, b :: bs => b.1 = s ∧ s + b.2 ≤ n ∧ Tiling n (s + b.2) bs

theorem splitGo_tiling (n : Nat) (idx : List Nat) (st : Nat)
    (h : (st :: idx).Pairwise (· ≤ ·)) : Tiling n (min st n) (splitGo n st idx) := by
  induction idx generalizing st with
  | nil => exact ⟨rfl, by simp only; omega, by show _ = _; simp only; omega⟩
  | cons e es ih =>
    have hse : st ≤ e := by
      have := List.pairwise_cons.1 h
      exact this.1 e (by simp)
    have h' := ih e (List.pairwise_cons.1 h).2
    refine ⟨rfl, by simp only; omega, ?_⟩
    have : min st n + (min e n - min st n) = min e n := by omega
    rw [this]; exact h'

theorem splitBounds_tiling (n : Nat) (idx : List Nat) (h : idx.Pairwise (· ≤ ·)) :
    Tiling n 0 (splitBounds n idx) := by
  have := splitGo_tiling n idx 0 (List.pairwise_cons.2 ⟨fun _ _ => Nat.zero_le _, h⟩)
  simpa [splitBounds] using this

theorem arange100_sorted (n : Nat) : (Disparity.arange100 n).Pairwise (· ≤ ·) := by
  unfold Disparity.arange100 arange arangeA Arr1.toList
  rw [List.map_map, List.pairwise_map]
  refine List.Pairwise.imp ?_ List.pairwise_lt_range
  intro a b hab
  simp only [Function.comp]
  omega

namespace Disparity
variable {β γ : Type}

theorem write_ok (out : Arr2 γ) (r0 h c0 w : Nat) (b : Arr2 γ)
    (hh : b.h = h) (hw : b.w = w) (h1 : r0 + h ≤ out.h) (h2 : c0 + w ≤ out.w) :
    ∃ o, out.write r0 h c0 w b = .ok o ∧ o.h = out.h ∧ o.w = out.w ∧
      ∀ i j, o.get i j =
        if r0 ≤ i ∧ i < r0 + h ∧ c0 ≤ j ∧ j < c0 + w then b.get (i - r0) (j - c0) else out.get i j := by
  have e1 : sliceLen out.h r0 (r0 + h : Nat) = b.h := by
    unfold sliceLen clampIdx
    split_ifs <;> omega
  have e2 : sliceLen out.w c0 (c0 + w : Nat) = b.w := by
    unfold sliceLen clampIdx
    split_ifs <;> omega
  unfold Arr2.write
  rw [if_pos ⟨e1, e2⟩]
  subst hh hw
  exact ⟨_, rfl, rfl, rfl, fun i j => rfl⟩

/-- Inner loop. -/
theorem splitCols_go (g : β → γ) (cvRow : Arr2 β) (rb : Nat) (bs : List (Nat × Nat)) :
    ∀ (out : Arr2 γ) (cb : Nat), Tiling cvRow.w cb bs → rb + cvRow.h ≤ out.h → out.w = cvRow.w →
    ∃ out' cb', (bs.map fun b => cvRow.block 0 cvRow.h b.1 b.2).foldlM
      (fun (s : Arr2 γ × Nat) cvCol => do
        let o ← s.1.write rb cvRow.h s.2 cvCol.w (cvCol.map g)
        return (o, s.2 + cvCol.w)) (out, cb) = (Except.ok (out', cb') : Except Err _) ∧
      out'.h = out.h ∧ out'.w = out.w ∧
      ∀ i j, out'.get i j =
        if rb ≤ i ∧ i < rb + cvRow.h ∧ cb ≤ j ∧ j < cvRow.w then g (cvRow.get (i - rb) j) else out.get i j := by
  induction bs with
  | nil =>
    intro out cb ht _ _
    refine ⟨out, cb, rfl, rfl, rfl, ?_⟩
    intro i j
    have : cb = cvRow.w := ht
    rw [if_neg (by omega)]
  | cons b bs ih =>
    intro out cb ht hh hw
    obtain ⟨hb, hle, ht'⟩ := ht
    simp only [List.map_cons, List.foldlM_cons]
    obtain ⟨out1, hwr, g1, g2, g3⟩ :=
      write_ok out rb cvRow.h cb b.2 ((cvRow.block 0 cvRow.h b.1 b.2).map g) rfl rfl hh (by omega)
    have hbw : (cvRow.block 0 cvRow.h b.1 b.2).w = b.2 := rfl
    rw [hbw, hwr]
    obtain ⟨out', cb', he, h1, h2, h3⟩ := ih out1 (cb + b.2) ht' (by omega) (by omega)
    refine ⟨out', cb', he, by omega, by omega, ?_⟩
    intro i j
    have g3' : out1.get i j = if rb ≤ i ∧ i < rb + cvRow.h ∧ cb ≤ j ∧ j < cb + b.2 then
      g (cvRow.get (0 + (i - rb)) (b.1 + (j - cb))) else out.get i j := g3 i j
    rw [h3 i j, g3']
    by_cases hc : rb ≤ i ∧ i < rb + cvRow.h ∧ cb + b.2 ≤ j ∧ j < cvRow.w
    · rw [if_pos hc, if_pos (by omega)]
    · rw [if_neg hc]
      by_cases hc2 : rb ≤ i ∧ i < rb + cvRow.h ∧ cb ≤ j ∧ j < cb + b.2
      · rw [if_pos hc2, if_pos (by omega)]
        congr 2 <;> omega
      · rw [if_neg hc2, if_neg (by omega)]

theorem splitCols_spec (g : β → γ) (cvRow : Arr2 β) (rb : Nat) (colIdx : List Nat)
    (hs : colIdx.Pairwise (· ≤ ·)) (out : Arr2 γ) (hh : rb + cvRow.h ≤ out.h) (hw : out.w = cvRow.w) :
    ∃ out', splitCols g cvRow rb colIdx out = .ok out' ∧ out'.h = out.h ∧ out'.w = out.w ∧
      ∀ i j, out'.get i j =
        if rb ≤ i ∧ i < rb + cvRow.h ∧ j < cvRow.w then g (cvRow.get (i - rb) j) else out.get i j := by
  obtain ⟨out', cb', he, h1, h2, h3⟩ :=
    splitCols_go g cvRow rb (splitBounds cvRow.w colIdx) out 0 (splitBounds_tiling _ _ hs) hh hw
  refine ⟨out', ?_, h1, h2, ?_⟩
  · unfold splitCols Arr2.splitCols
    rw [he]; rfl
  · intro i j
    rw [h3 i j]
    by_cases hc : rb ≤ i ∧ i < rb + cvRow.h ∧ j < cvRow.w
    · rw [if_pos hc, if_pos (by omega)]
    · rw [if_neg hc, if_neg (by omega)]

/-- Outer loop. -/
theorem splitLoop_go (g : β → γ) (a : Arr2 β) (colIdx : List Nat) (hs : colIdx.Pairwise (· ≤ ·))
    (bs : List (Nat × Nat)) :
    ∀ (out : Arr2 γ) (rb : Nat), Tiling a.h rb bs → out.h = a.h → out.w = a.w →
    ∃ out' rb', (bs.map fun b => a.block b.1 b.2 0 a.w).foldlM
      (fun (s : Arr2 γ × Nat) cvRow => do
        let o ← splitCols g cvRow s.2 colIdx s.1
        return (o, s.2 + cvRow.h)) (out, rb) = (Except.ok (out', rb') : Except Err _) ∧
      out'.h = a.h ∧ out'.w = a.w ∧
      ∀ i j, out'.get i j = if rb ≤ i ∧ i < a.h ∧ j < a.w then g (a.get i j) else out.get i j := by
  induction bs with
  | nil =>
    intro out rb ht h1 h2
    refine ⟨out, rb, rfl, h1, h2, ?_⟩
    intro i j
    have : rb = a.h := ht
    rw [if_neg (by omega)]
  | cons b bs ih =>
    intro out rb ht h1 h2
    obtain ⟨hb, hle, ht'⟩ := ht
    simp only [List.map_cons, List.foldlM_cons]
    obtain ⟨out1, he1, e1, e2, e3⟩ := splitCols_spec g (a.block b.1 b.2 0 a.w) rb colIdx hs out
      (by simp only [Arr2.block]; omega) (by simpa [Arr2.block] using h2)
    rw [he1]
    simp only [bind, Except.bind, pure, Except.pure]
    have hbh : (a.block b.1 b.2 0 a.w).h = b.2 := rfl
    rw [hbh]
    obtain ⟨out', rb', he, f1, f2, f3⟩ := ih out1 (rb + b.2) ht' (by omega) (by omega)
    refine ⟨out', rb', he, f1, f2, ?_⟩
    intro i j
    have e3' : out1.get i j = if rb ≤ i ∧ i < rb + b.2 ∧ j < a.w then
      g (a.get (b.1 + (i - rb)) (0 + j)) else out.get i j := e3 i j
    rw [f3 i j, e3']
    by_cases hc : rb + b.2 ≤ i ∧ i < a.h ∧ j < a.w
    · rw [if_pos hc, if_pos (by omega)]
    · rw [if_neg hc]
      by_cases hc2 : rb ≤ i ∧ i < rb + b.2 ∧ j < a.w
      · rw [if_pos hc2, if_pos (by omega)]
        congr 2 <;> omega
      · rw [if_neg hc2, if_neg (by omega)]

/-- The block-wise loop applies `g` to every cell, for every sorted list of split points. -/
theorem splitLoop_spec (g : β → γ) (a : Arr2 β) (rowIdx colIdx : List Nat)
    (hr : rowIdx.Pairwise (· ≤ ·)) (hc : colIdx.Pairwise (· ≤ ·))
    (out : Arr2 γ) (h1 : out.h = a.h) (h2 : out.w = a.w) :
    ∃ out', splitLoop g a rowIdx colIdx out = .ok out' ∧ out'.h = a.h ∧ out'.w = a.w ∧
      ∀ i < a.h, ∀ j < a.w, out'.get i j = g (a.get i j) := by
  obtain ⟨out', rb', he, f1, f2, f3⟩ :=
    splitLoop_go g a colIdx hc (splitBounds a.h rowIdx) out 0 (splitBounds_tiling _ _ hr) h1 h2
  refine ⟨out', ?_, f1, f2, ?_⟩
  · unfold splitLoop Arr2.splitRows
    rw [he]; rfl
  · intro i hi j hj
    rw [f3 i j, if_pos (by omega)]

end Disparity
end Verif
