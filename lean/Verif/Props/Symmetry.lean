import Verif.Spec.Symmetry
import Verif.Props.Whole

/-!
# C108–C111: mirrored images, another radiometry, overlapping images, more no-data
-/

namespace Verif.Props

open Verif Verif.Config Verif.Machine Verif.ImgTools Verif.MatchingCost Verif.Disparity Verif.Run Verif.Main Verif.Spec Verif.Save
  Verif.Statistics

set_option linter.unusedSectionVars false

variable {K : Type} [Field K] [LinearOrder K] [IsStrictOrderedRing K] [FloorRing K]

/-- What a pixel holds when `R t u v` says that the pair `(u, v)` has the cost `t`. -/
def Chosen (me : Measure) (R : F K → Int → Int → Prop) (invalid row col s : F K) : Prop :=
  ((row = invalid ∧ col = invalid ∧ s = invalid) ∧ ∀ t u v, R t u v → t = .nan) ∨
  (s ≠ .nan ∧ ∃ x y : Int, row = .fin (x : K) ∧ col = .fin (y : K) ∧ (∃ v, R s x v) ∧ (∃ u, R s u y) ∧
    (∀ u v, R s u v → x ≤ u ∧ y ≤ v) ∧ ∀ t u v, t ≠ .nan → R t u v → AtLeastAsGood me s t)

theorem best_chosen {hw : Nat} {ker : List (F K × F K) → F K} {left right : Img K} {dRow dCol : Disp} {a b : Nat} {me : Measure}
    {invalid row col s : F K} (k : BestPair me (AskedPair dRow dCol 1 (a : Int) (b : Int))
      (fun x y => wholeCost hw ker left right a b ⌊x⌋ ⌊y⌋) invalid row col s) :
    Chosen me (Reaches hw ker left right dRow dCol a b) invalid row col s := by
  have asks : ∀ t u v, Reaches hw ker left right dRow dCol a b t u v →
      AskedPair dRow dCol 1 (a : Int) (b : Int) ((u : Int) : K) ((v : Int) : K) ∧
        wholeCost hw ker left right a b ⌊((u : Int) : K)⌋ ⌊((v : Int) : K)⌋ = t := by
    intro t u v ⟨⟨⟨r1, r2⟩, c1, c2⟩, hcmp, hm⟩
    refine ⟨⟨⟨_, _, by rw [Nat.cast_one, mul_one], by rw [Nat.cast_one, mul_one]⟩,
      ⟨Int.cast_le.2 r1, Int.cast_le.2 r2⟩, Int.cast_le.2 c1, Int.cast_le.2 c2⟩, ?_⟩
    rw [Int.floor_intCast, Int.floor_intCast]
    unfold wholeCost
    rw [if_pos hcmp, hm]
  by_cases he : ∃ x y : K, AskedPair dRow dCol 1 (a : Int) (b : Int) x y ∧ wholeCost hw ker left right a b ⌊x⌋ ⌊y⌋ ≠ .nan
  swap
  · push Not at he
    refine .inl ⟨k.invalid he, fun t u v h => ?_⟩
    obtain ⟨q1, q2⟩ := asks t u v h
    rw [← q2]
    exact he _ _ q1
  right
  obtain ⟨⟨hs, -⟩, hb⟩ := k.best he
  obtain ⟨dr, dc, e1, e2, ⟨dc', q1, q2⟩, ⟨dr', q3, q4⟩, hsm⟩ := k.smallest he
  have reach : ∀ x y : K, AskedPair dRow dCol 1 (a : Int) (b : Int) x y → wholeCost hw ker left right a b ⌊x⌋ ⌊y⌋ = s →
      Reaches hw ker left right dRow dCol a b s ⌊x⌋ ⌊y⌋ ∧ x = ((⌊x⌋ : Int) : K) ∧ y = ((⌊y⌋ : Int) : K) := by
    intro x y ⟨⟨u, v, hx, hy⟩, hr, hc⟩ hcost
    rw [Nat.cast_one, mul_one] at hx hy
    subst hx hy
    rw [Int.floor_intCast, Int.floor_intCast] at hcost ⊢
    refine ⟨⟨⟨⟨Int.cast_le.1 hr.1, Int.cast_le.1 hr.2⟩, Int.cast_le.1 hc.1, Int.cast_le.1 hc.2⟩, ?_⟩, rfl, rfl⟩
    unfold wholeCost at hcost
    by_cases hcmp : Comparable hw left right a b u v
    · rw [if_pos hcmp] at hcost
      exact ⟨hcmp, hcost⟩
    · rw [if_neg hcmp] at hcost
      exact absurd hcost.symm hs
  obtain ⟨t1, t2, -⟩ := reach _ _ q1 q2
  obtain ⟨t3, -, t4⟩ := reach _ _ q3 q4
  refine ⟨hs, ⌊dr⌋, ⌊dc⌋, by rw [← t2]; exact e1, by rw [← t4]; exact e2, ⟨_, t1⟩, ⟨_, t3⟩, fun u v h => ?_, fun t u v ht h => ?_⟩
  · obtain ⟨p1, p2⟩ := asks s u v h
    obtain ⟨g1, g2⟩ := hsm _ _ p1 p2
    rw [t2] at g1
    rw [t4] at g2
    exact ⟨Int.cast_le.1 g1, Int.cast_le.1 g2⟩
  · obtain ⟨p1, p2⟩ := asks t u v h
    exact hb t ⟨ht, _, _, p1, p2⟩

section
variable {w : World K} {user p mc inp l r : Fields} {H W : Nat} {dRow dCol : Disp} {sr sc : Nat} {invalid : F K} {hw : Nat} {me : Measure}
  {ker : List (F K × F K) → F K} {out : List (Written K)}

theorem whole_chosen (cfg : WholePixels w user p mc inp l r H W dRow dCol sr sc invalid hw me ker) (wf : user.wf)
    (hdisk : DiskContract w H W) (hpan : PandoraContract w) (hkeeps : PandoraKeeps w.pandora)
    (hnd : ∀ left right, ImagesRead w l r none left right → right.noData ≠ .nan) (h : Main.main w user = (out, none)) :
    ∃ files rest left right, out = .rasters files :: rest ∧ ImagesRead w l r none left right ∧ ((left.h = H ∧ left.w = W) ∧ right.h = H ∧ right.w = W) ∧
      (∀ f ∈ [files.row, files.col, files.score], (∀ i, i < f.h ↔ i * sr < H) ∧ ∀ j, j < f.w ↔ j * sc < W) ∧
      ∀ i < files.row.h, ∀ j < files.row.w, Chosen me (Reaches hw ker left right dRow dCol (i * sr) (j * sc)) invalid
        (files.row.values i j) (files.col.values i j) (files.score.values i j) := by
  obtain ⟨files, rest, left, right, o, im, sz, z, key⟩ := whole_rasters cfg wf hdisk hpan hkeeps hnd h
  exact ⟨files, rest, left, right, o, im, sz, z, fun i hi j hj => best_chosen (key i hi j hj)⟩

end

section
variable {me : Measure} {R R' : F K → Int → Int → Prop} {invalid invalid' row col s row' col' s' : F K}

theorem good_antisymm {a b : F K} (h1 : AtLeastAsGood me a b) (h2 : AtLeastAsGood me b a) : a = b := by
  cases me
  · exact F.le_antisymm' h2 h1
  · exact F.le_antisymm' h1 h2

/-- Fewer pairs with a cost. -/
theorem chosen_fewer (k : Chosen me R invalid row col s) (k' : Chosen me R' invalid' row' col' s') (h : ∀ t u v, t ≠ .nan → R' t u v → R t u v) :
    ((row' = invalid' ∧ col' = invalid' ∧ s' = invalid') ∨ s ≠ .nan ∧ s' ≠ .nan ∧ AtLeastAsGood me s s') ∧
    ((∀ u v, R s u v → R' s u v) → SamePixel invalid invalid' row col s row' col' s') := by
  rcases k' with ⟨i', n'⟩ | ⟨hs', x', y', ex', ey', ⟨v', hv'⟩, ⟨u', hu'⟩, hm', hb'⟩
  · refine ⟨.inl i', fun hr => ?_⟩
    rcases k with ⟨i, n⟩ | ⟨hs, x, y, ex, ey, ⟨v, hv⟩, -⟩
    · exact .inl ⟨i.1, i.2.1, i.2.2, i'⟩
    · exact absurd (n' _ _ _ (hr _ _ hv)) hs
  · rcases k with ⟨i, n⟩ | ⟨hs, x, y, ex, ey, ⟨v, hv⟩, ⟨u, hu⟩, hm, hb⟩
    · exact absurd (n _ _ _ (h _ _ _ hs' hv')) hs'
    · have g := hb _ _ _ hs' (h _ _ _ hs' hv')
      refine ⟨.inr ⟨hs, hs', g⟩, fun hr => .inr ?_⟩
      have e : s = s' := good_antisymm g (hb' _ _ _ hs (hr _ _ hv))
      subst e
      have a1 := hm _ _ (h _ _ _ hs hv')
      have a2 := hm _ _ (h _ _ _ hs hu')
      have a3 := hm' _ _ (hr _ _ hv)
      have a4 := hm' _ _ (hr _ _ hu)
      refine ⟨?_, ?_, rfl⟩
      · rw [ex, ex', show x = x' by omega]
      · rw [ey, ey', show y = y' by omega]

/-- The same pairs with the same costs. -/
theorem chosen_same (k : Chosen me R invalid row col s) (k' : Chosen me R' invalid' row' col' s') (h : ∀ t u v, R' t u v ↔ R t u v) :
    SamePixel invalid invalid' row col s row' col' s' :=
  (chosen_fewer k k' fun t u v _ => (h t u v).1).2 fun u v => (h s u v).2

/-- Other pairs with the same costs. -/
theorem chosen_moved (k : Chosen me R invalid row col s) (k' : Chosen me R' invalid' row' col' s') (σ τ : Int → Int)
    (hσ : ∀ x, σ (σ x) = x) (hτ : ∀ x, τ (τ x) = x) (h : ∀ t u v, R t u v ↔ R' t (σ u) (τ v)) :
    BothInvalid invalid invalid' row col s row' col' s' ∨
    s = s' ∧ s ≠ .nan ∧ ∀ x y : Int, OnlyPair (R s) x y →
      row = .fin (x : K) ∧ col = .fin (y : K) ∧ row' = .fin ((σ x : Int) : K) ∧ col' = .fin ((τ y : Int) : K) := by
  have h' : ∀ t u v, R' t u v → R t (σ u) (τ v) := fun t u v q => by rw [h, hσ, hτ]; exact q
  rcases k with ⟨i, n⟩ | ⟨hs, x, y, ex, ey, ⟨v, hv⟩, ⟨u, hu⟩, hm, hb⟩
  · rcases k' with ⟨i', n'⟩ | ⟨hs', x', y', ex', ey', ⟨v', hv'⟩, -⟩
    · exact .inl ⟨i.1, i.2.1, i.2.2, i'⟩
    · exact absurd (n _ _ _ (h' _ _ _ hv')) hs'
  · rcases k' with ⟨i', n'⟩ | ⟨hs', x', y', ex', ey', ⟨v', hv'⟩, ⟨u', hu'⟩, hm', hb'⟩
    · exact absurd (n' _ _ _ ((h _ _ _).1 hv)) hs
    · have e : s = s' := good_antisymm (hb _ _ _ hs' (h' _ _ _ hv')) (hb' _ _ _ hs ((h _ _ _).1 hv))
      subst e
      refine .inr ⟨rfl, hs, fun x0 y0 ho => ?_⟩
      obtain ⟨o1, -⟩ := (ho _ _).1 hv
      obtain ⟨-, o2⟩ := (ho _ _).1 hu
      obtain ⟨o3, -⟩ := (ho _ _).1 (h' _ _ _ hv')
      obtain ⟨-, o4⟩ := (ho _ _).1 (h' _ _ _ hu')
      rw [ex, ey, ex', ey', o1, o2, ← o3, ← o4, hσ, hτ]
      exact ⟨rfl, rfl, rfl, rfl⟩

/-- The same pairs with costs seen through `φ`. -/
theorem chosen_seen (k : Chosen me R invalid row col s) (k' : Chosen me R' invalid' row' col' s') {φ : F K → F K}
    (hn : ∀ s, φ s = .nan ↔ s = .nan) (ho : ∀ s t, F.le (φ s) (φ t) = F.le s t)
    (h1 : ∀ t u v, R t u v → R' (φ t) u v) (h2 : ∀ t' u v, R' t' u v → ∃ t, t' = φ t ∧ R t u v) :
    BothInvalid invalid invalid' row col s row' col' s' ∨ s ≠ .nan ∧ row' = row ∧ col' = col ∧ s' = φ s := by
  rcases k with ⟨i, n⟩ | ⟨hs, x, y, ex, ey, ⟨v, hv⟩, ⟨u, hu⟩, hm, hb⟩
  · rcases k' with ⟨i', n'⟩ | ⟨hs', x', y', ex', ey', ⟨v', hv'⟩, -⟩
    · exact .inl ⟨i.1, i.2.1, i.2.2, i'⟩
    · obtain ⟨t, rfl, ht⟩ := h2 _ _ _ hv'
      exact absurd ((hn _).2 (n _ _ _ ht)) hs'
  · have hφ : φ s ≠ .nan := fun q => hs ((hn _).1 q)
    rcases k' with ⟨i', n'⟩ | ⟨hs', x', y', ex', ey', ⟨v', hv'⟩, ⟨u', hu'⟩, hm', hb'⟩
    · exact absurd (n' _ _ _ (h1 _ _ _ hv)) hφ
    · obtain ⟨t, et, ht⟩ := h2 _ _ _ hv'
      obtain ⟨t2, et2, ht2⟩ := h2 _ _ _ hu'
      have tn : t ≠ .nan := fun q => hs' (by rw [et, (hn _).2 q])
      have g1 := hb _ _ _ tn ht
      have g2 := hb' _ _ _ hφ (h1 _ _ _ hv)
      have keep : ∀ a b, AtLeastAsGood me (φ a) (φ b) → AtLeastAsGood me a b := by
        intro a b q
        cases me <;> simpa only [AtLeastAsGood, ho] using q
      rw [et] at g2
      have e : s = t := good_antisymm g1 (keep _ _ g2)
      have inj : t2 = t := by
        have q : F.le (φ t) (φ t) = true := by
          have := ho t t
          rw [this]
          cases t with
          | nan => exact absurd rfl tn
          | _ => simp [F.le]
        refine F.le_antisymm' (by rw [← ho, ← et2, et]; exact q) (by rw [← ho, ← et2, et]; exact q)
      subst e
      rw [inj] at ht2
      have a1 := hm _ _ ht
      have a2 := hm _ _ ht2
      rw [et] at hm'
      have a3 := hm' _ _ (h1 _ _ _ hv)
      have a4 := hm' _ _ (h1 _ _ _ hu)
      refine .inr ⟨hs, ?_, ?_, et⟩
      · rw [ex, ex', show x' = x by omega]
      · rw [ey, ey', show y' = y by omega]

end

/-! ## Mirrored images -/

theorem turned_turned {t : Bool} {n x : Nat} (h : x < n) : turned t n (turned t n x) = x ∧ turned t n x < n := by
  refine ⟨?_, ?_⟩ <;> cases t <;> simp only [turned, Bool.false_eq_true, if_true, if_false] <;> omega

theorem opposed_opposed (t : Bool) (d : Int) : opposed t (opposed t d) = d := by
  cases t <;> simp [opposed]

theorem mirrored_symm {tr tc : Bool} {img img' : Img K} (h : Mirrored tr tc img img') (s : img'.h = img.h ∧ img'.w = img.w) :
    Mirrored tr tc img' img := by
  obtain ⟨s1, s2⟩ := s
  refine ⟨h.noData.symm, fun x hx y hy => ?_, fun x hx y hy => ?_, fun x hx y hy => ?_⟩ <;> rw [s1] at hx ⊢ <;> rw [s2] at hy ⊢
  · have := h.values _ (turned_turned (t := tr) hx).2 _ (turned_turned (t := tc) hy).2
    rwa [(turned_turned hx).1, (turned_turned hy).1, eq_comm] at this
  · have := h.flags _ (turned_turned (t := tr) hx).2 _ (turned_turned (t := tc) hy).2
    rwa [(turned_turned hx).1, (turned_turned hy).1, eq_comm] at this
  · have := h.valid _ (turned_turned (t := tr) hx).2 _ (turned_turned (t := tc) hy).2
    rwa [(turned_turned hx).1, (turned_turned hy).1, eq_comm] at this

/-- A window of `2 * hw + 1` rows around `a`, its row `x` and the row `x + d` displaced, seen from the other end. -/
theorem turned_window {t : Bool} {n hw a x : Nat} {d : Int} (h1 : (hw : Int) ≤ a + d) (h2 : (a : Int) + d + hw < n) (h3 : a < n)
    (hx : x < 2 * hw + 1) :
    ((turned t n a : Nat) + opposed t d + x - (hw : Int)).toNat = turned t n ((a : Int) + d + (turned t (2 * hw + 1) x : Nat) - hw).toNat ∧
      ((a : Int) + d + (turned t (2 * hw + 1) x : Nat) - hw).toNat < n := by
  refine ⟨?_, ?_⟩ <;> cases t <;> simp only [turned, opposed, Bool.false_eq_true, if_true, if_false] <;> omega

theorem turned_range (t : Bool) (n : Nat) : ((List.range n).map (turned t n)).Perm (List.range n) := by
  refine (List.perm_ext_iff_of_nodup ?_ List.nodup_range).2 fun x => ?_
  · refine List.Nodup.map_on (fun x hx y hy e => ?_) List.nodup_range
    rw [← (turned_turned (t := t) (List.mem_range.1 hx)).1, e, (turned_turned (List.mem_range.1 hy)).1]
  · rw [List.mem_map, List.mem_range]
    constructor
    · rintro ⟨y, hy, rfl⟩
      exact (turned_turned (List.mem_range.1 hy)).2
    · intro hx
      exact ⟨_, List.mem_range.2 (turned_turned hx).2, (turned_turned (t := t) hx).1⟩

section
variable {tr tc : Bool} {H W hw : Nat} {left right left' right' : Img K} {a b : Nat} {u v : Int}

theorem comparable_mirrored (hl : Mirrored tr tc left left') (hr : Mirrored tr tc right right')
    (s : (left.h = H ∧ left.w = W) ∧ right.h = H ∧ right.w = W) (s' : (left'.h = H ∧ left'.w = W) ∧ right'.h = H ∧ right'.w = W)
    (h : Comparable hw left right a b u v) :
    Comparable hw left' right' (turned tr H a) (turned tc W b) (opposed tr u) (opposed tc v) := by
  obtain ⟨⟨⟨b1, b2, b3, b4⟩, b5, b6, b7, b8⟩, c1, c2, c3⟩ := h
  obtain ⟨⟨s1, s2⟩, s3, s4⟩ := s
  obtain ⟨⟨s5, s6⟩, s7, s8⟩ := s'
  rw [s1] at b2
  rw [s2] at b4
  rw [s3] at b6
  rw [s4] at b8
  refine ⟨⟨?_, ?_⟩, ?_, ?_, ?_⟩
  · rw [s5, s6]
    cases tr <;> cases tc <;> simp only [turned, Bool.false_eq_true, if_true, if_false] <;>
      exact ⟨by omega, by omega, by omega, by omega⟩
  · rw [s7, s8]
    cases tr <;> cases tc <;> simp only [turned, opposed, Bool.false_eq_true, if_true, if_false] <;>
      exact ⟨by omega, by omega, by omega, by omega⟩
  · intro x y x1 x2 y1 y2
    have key := fun (p : x < H) (q : y < W) => hl.flags (turned tr H x) (by rw [s1]; exact (turned_turned p).2) (turned tc W y)
      (by rw [s2]; exact (turned_turned q).2)
    rw [s1, s2] at key
    have hx : x < H ∧ a ≤ turned tr H x + hw ∧ turned tr H x ≤ a + hw := by
      cases tr <;> simp only [turned, Bool.false_eq_true, if_true, if_false] at x1 x2 ⊢ <;> omega
    have hy : y < W ∧ b ≤ turned tc W y + hw ∧ turned tc W y ≤ b + hw := by
      cases tc <;> simp only [turned, Bool.false_eq_true, if_true, if_false] at y1 y2 ⊢ <;> omega
    have k := key hx.1 hy.1
    rw [(turned_turned hx.1).1, (turned_turned hy.1).1] at k
    rw [k]
    exact c1 _ _ hx.2.1 hx.2.2 hy.2.1 hy.2.2
  · have := hl.valid a (by omega) b (by omega)
    rw [s1, s2] at this
    rw [this]; exact c2
  · intro x y x1 x2 y1 y2
    have key := fun (p : x < H) (q : y < W) => hr.values (turned tr H x) (by rw [s3]; exact (turned_turned p).2) (turned tc W y)
      (by rw [s4]; exact (turned_turned q).2)
    rw [s3, s4] at key
    have hx : x < H ∧ (a : Int) + u ≤ (turned tr H x : Nat) + hw ∧ ((turned tr H x : Nat) : Int) ≤ a + u + hw := by
      cases tr <;> simp only [turned, opposed, Bool.false_eq_true, if_true, if_false] at x1 x2 ⊢ <;> omega
    have hy : y < W ∧ (b : Int) + v ≤ (turned tc W y : Nat) + hw ∧ ((turned tc W y : Nat) : Int) ≤ b + v + hw := by
      cases tc <;> simp only [turned, opposed, Bool.false_eq_true, if_true, if_false] at y1 y2 ⊢ <;> omega
    have k := key hx.1 hy.1
    rw [(turned_turned hx.1).1, (turned_turned hy.1).1] at k
    rw [k, hr.noData]
    exact c3 _ _ hx.2.1 hx.2.2 hy.2.1 hy.2.2

theorem pairs_mirrored (hl : Mirrored tr tc left left') (hr : Mirrored tr tc right right')
    (s : (left.h = H ∧ left.w = W) ∧ right.h = H ∧ right.w = W) (h : BothInside hw left right u v a b) :
    (wholePairs hw left' right' (turned tr H a) (turned tc W b) (opposed tr u) (opposed tc v)).Perm (wholePairs hw left right a b u v) := by
  obtain ⟨⟨b1, b2, b3, b4⟩, b5, b6, b7, b8⟩ := h
  obtain ⟨⟨s1, s2⟩, s3, s4⟩ := s
  rw [s1] at b2
  rw [s2] at b4
  rw [s3] at b6
  rw [s4] at b8
  have e : wholePairs hw left' right' (turned tr H a) (turned tc W b) (opposed tr u) (opposed tc v) =
      ((List.range (2 * hw + 1)).map (turned tr (2 * hw + 1))).flatMap fun x => ((List.range (2 * hw + 1)).map (turned tc (2 * hw + 1))).map
        fun y => (left.im (a + x - hw) (b + y - hw), right.im ((a : Int) + u + x - hw).toNat ((b : Int) + v + y - hw).toNat) := by
    unfold wholePairs
    rw [List.flatMap_map]
    refine List.flatMap_congr fun x hx => ?_
    rw [List.map_map]
    refine List.map_congr_left fun y hy => ?_
    rw [List.mem_range] at hx hy
    obtain ⟨p1, p2⟩ := turned_window (t := tr) (n := H) (hw := hw) (a := a) (d := u) (by omega) (by omega) (by omega) hx
    obtain ⟨p3, p4⟩ := turned_window (t := tc) (n := W) (hw := hw) (a := b) (d := v) (by omega) (by omega) (by omega) hy
    obtain ⟨p5, p6⟩ := turned_window (t := tr) (n := H) (hw := hw) (a := a) (d := 0) (by omega) (by omega) (by omega) hx
    obtain ⟨p7, p8⟩ := turned_window (t := tc) (n := W) (hw := hw) (a := b) (d := 0) (by omega) (by omega) (by omega) hy
    have z : ∀ t : Bool, opposed t (0 : Int) = 0 := fun t => by cases t <;> rfl
    have e1 : ∀ t : Bool, ∀ n c x : Nat, ((turned t n c : Nat) + (0 : Int) + x - (hw : Int)).toNat = turned t n c + x - hw := fun t n c x => by omega
    have e2 : ∀ c y : Nat, ((c : Int) + 0 + (y : Nat) - hw).toNat = c + y - hw := fun c y => by omega
    rw [z, e1, e2] at p5 p7
    rw [e2] at p6 p8
    simp only [Function.comp]
    rw [p1, p3, p5, p7]
    have hL := hl.values _ (by rw [s1]; exact p6) _ (by rw [s2]; exact p8)
    have hR := hr.values _ (by rw [s3]; exact p2) _ (by rw [s4]; exact p4)
    rw [s1, s2] at hL
    rw [s3, s4] at hR
    rw [hL, hR]
  rw [e]
  unfold wholePairs
  exact List.Perm.flatMap (turned_range _ _) fun x _ => (turned_range _ _).map _

theorem reaches_mirrored {ker : List (F K × F K) → F K} (hk : OrderFree ker) (hl : Mirrored tr tc left left') (hr : Mirrored tr tc right right')
    (s : (left.h = H ∧ left.w = W) ∧ right.h = H ∧ right.w = W) (s' : (left'.h = H ∧ left'.w = W) ∧ right'.h = H ∧ right'.w = W)
    {dRow dCol dRow' dCol' : Disp} (ir : MirroredIntervals tr tc tr dRow dRow' H W) (ic : MirroredIntervals tr tc tc dCol dCol' H W)
    (ha : a < H) (hb : b < W) (t : F K) : Reaches hw ker left right dRow dCol a b t u v ↔
      Reaches hw ker left' right' dRow' dCol' (turned tr H a) (turned tc W b) t (opposed tr u) (opposed tc v) := by
  have hi : InIntervals dRow dCol a b u v ↔ InIntervals dRow' dCol' (turned tr H a : Nat) (turned tc W b : Nat) (opposed tr u) (opposed tc v) :=
    and_congr (ir a ha b hb u) (ic a ha b hb v)
  have hc : Comparable hw left right a b u v ↔ Comparable hw left' right' (turned tr H a) (turned tc W b) (opposed tr u) (opposed tc v) := by
    refine ⟨comparable_mirrored hl hr s s', fun q => ?_⟩
    have := comparable_mirrored (mirrored_symm hl (by omega)) (mirrored_symm hr (by omega)) s' s q
    rwa [(turned_turned ha).1, (turned_turned hb).1, opposed_opposed, opposed_opposed] at this
  unfold Reaches
  rw [hi, hc]
  refine and_congr_right fun _ => and_congr_right fun q => ?_
  rw [hk _ _ (pairs_mirrored hl hr s (hc.2 q).inside)]

end

/-- C108: mirroring the images (upside down, left to right, or both) and opposing the intervals of disparities of the mirrored directions keeps
the scores. Two successful executions on full images, without estimation nor refinement, with disparities of whole pixels and the same window
cost, whose measure does not depend on the order of the pixels in the window. At each pixel of the first which is, mirrored, a pixel of the
second: both are invalid, or the scores are equal and, when one pair of disparities only reaches the score, both executions give it, opposed in
the mirrored directions in the second. Missing from the full claim: with ties, the smallest disparity is taken in both executions, so that
they differ (`C108_false`). -/
theorem C108_mirrored_partial (tr tc : Bool) (w w' : World K) (user user' p p' mc mc' inp inp' l r l' r' : Fields) (out out' : List (Written K))
    (H W : Nat) (dRow dCol dRow' dCol' : Disp) (sr sc sr' sc' : Nat) (invalid invalid' : F K) (hw : Nat) (me : Measure)
    (ker : List (F K × F K) → F K) (wf : user.wf) (wf' : user'.wf)
    (hdisk : DiskContract w H W) (hpan : PandoraContract w) (hkeeps : PandoraKeeps w.pandora)
    (hdisk' : DiskContract w' H W) (hpan' : PandoraContract w') (hkeeps' : PandoraKeeps w'.pandora)
    (cfg : WholePixels w user p mc inp l r H W dRow dCol sr sc invalid hw me ker)
    (cfg' : WholePixels w' user' p' mc' inp' l' r' H W dRow' dCol' sr' sc' invalid' hw me ker) (hk : OrderFree ker)
    (himg : ∀ left right left' right', ImagesRead w l r none left right → ImagesRead w' l' r' none left' right' →
      Mirrored tr tc left left' ∧ Mirrored tr tc right right')
    (hnd : ∀ left right, ImagesRead w l r none left right → right.noData ≠ .nan)
    (ir : MirroredIntervals tr tc tr dRow dRow' H W) (ic : MirroredIntervals tr tc tc dCol dCol' H W)
    (h : Main.main w user = (out, none)) (h' : Main.main w' user' = (out', none)) :
    ∃ files rest files' rest' left right, out = .rasters files :: rest ∧ out' = .rasters files' :: rest' ∧ ImagesRead w l r none left right ∧
      (∀ f ∈ [files.row, files.col, files.score], (∀ i, i < f.h ↔ i * sr < H) ∧ ∀ j, j < f.w ↔ j * sc < W) ∧
      (∀ f ∈ [files'.row, files'.col, files'.score], (∀ i, i < f.h ↔ i * sr' < H) ∧ ∀ j, j < f.w ↔ j * sc' < W) ∧
      ∀ i j i' j' : Nat, i < files.row.h → j < files.row.w → i' < files'.row.h → j' < files'.row.w →
        i' * sr' = turned tr H (i * sr) → j' * sc' = turned tc W (j * sc) →
        BothInvalid invalid invalid' (files.row.values i j) (files.col.values i j) (files.score.values i j)
          (files'.row.values i' j') (files'.col.values i' j') (files'.score.values i' j') ∨
        files.score.values i j = files'.score.values i' j' ∧ files.score.values i j ≠ .nan ∧
          ∀ x y : Int, OnlyPair (Reaches hw ker left right dRow dCol (i * sr) (j * sc) (files.score.values i j)) x y →
            files.row.values i j = .fin (x : K) ∧ files.col.values i j = .fin (y : K) ∧
            files'.row.values i' j' = .fin ((opposed tr x : Int) : K) ∧ files'.col.values i' j' = .fin ((opposed tc y : Int) : K) := by
  obtain ⟨files, rest, left, right, o, im, s, z, key⟩ := whole_chosen cfg wf hdisk hpan hkeeps hnd h
  have hnd' : ∀ left' right', ImagesRead w' l' r' none left' right' → right'.noData ≠ .nan := fun left' right' q => by
    rw [(himg _ _ _ _ im q).2.noData]; exact hnd _ _ im
  obtain ⟨files', rest', left', right', o', im', s', z', key'⟩ := whole_chosen cfg' wf' hdisk' hpan' hkeeps' hnd' h'
  obtain ⟨tl, tr'⟩ := himg _ _ _ _ im im'
  refine ⟨files, rest, files', rest', left, right, o, o', im, z, z', fun i j i' j' hi hj hi' hj' e1 e2 => ?_⟩
  have bi : i * sr < H := ((z _ List.mem_cons_self).1 i).1 hi
  have bj : j * sc < W := ((z _ List.mem_cons_self).2 j).1 hj
  have k' := key' i' hi' j' hj'
  rw [e1, e2] at k'
  exact chosen_moved (key i hi j hj) k' (opposed tr) (opposed tc) (opposed_opposed tr) (opposed_opposed tc) fun t u v =>
    reaches_mirrored hk tl tr' s s' ir ic bi bj t

/-! ## Another radiometry -/

section
variable {hw : Nat} {left right left' right' : Img K} {a b : Nat} {u v : Int} {gl gr φ : F K → F K}

theorem comparable_regraded (hl : Regraded gl left left') (hr : Regraded gr right right') (sl : left'.h = left.h ∧ left'.w = left.w)
    (sr : right'.h = right.h ∧ right'.w = right.w) : Comparable hw left' right' a b u v ↔ Comparable hw left right a b u v := by
  obtain ⟨l1, l2⟩ := sl
  obtain ⟨r1, r2⟩ := sr
  have hin : BothInside hw left' right' u v a b ↔ BothInside hw left right u v a b := by unfold BothInside; rw [l1, l2, r1, r2]
  constructor
  · rintro ⟨b1, b2, b3, b4⟩
    have bi := hin.1 b1
    obtain ⟨⟨c1, c2, c3, c4⟩, c5, c6, c7, c8⟩ := bi
    refine ⟨hin.1 b1, fun x y x1 x2 y1 y2 => ?_, ?_, fun x y x1 x2 y1 y2 => ?_⟩
    · rw [← hl.flags x (by omega) y (by omega)]
      exact b2 x y x1 x2 y1 y2
    · rw [← hl.valid a (by omega) b (by omega)]
      exact b3
    · intro e
      refine b4 x y x1 x2 y1 y2 ?_
      rw [hr.values x (by omega) y (by omega), hr.noData, e]
  · rintro ⟨b1, b2, b3, b4⟩
    have bi := b1
    obtain ⟨⟨c1, c2, c3, c4⟩, c5, c6, c7, c8⟩ := bi
    refine ⟨hin.2 b1, fun x y x1 x2 y1 y2 => ?_, ?_, fun x y x1 x2 y1 y2 => ?_⟩
    · rw [hl.flags x (by omega) y (by omega)]
      exact b2 x y x1 x2 y1 y2
    · rw [hl.valid a (by omega) b (by omega)]
      exact b3
    · intro e
      refine b4 x y x1 x2 y1 y2 (hr.only x (by omega) y (by omega) ?_)
      rw [← hr.values x (by omega) y (by omega), ← hr.noData, e]

theorem pairs_regraded (hl : Regraded gl left left') (hr : Regraded gr right right') (h : BothInside hw left right u v a b) :
    wholePairs hw left' right' a b u v = (wholePairs hw left right a b u v).map (Prod.map gl gr) := by
  obtain ⟨⟨b1, b2, b3, b4⟩, b5, b6, b7, b8⟩ := h
  unfold wholePairs
  rw [List.map_flatMap]
  refine List.flatMap_congr fun x hx => ?_
  rw [List.map_map]
  refine List.map_congr_left fun y hy => ?_
  rw [List.mem_range] at hx hy
  simp only [Function.comp, Prod.map_apply]
  rw [hl.values _ (by omega) _ (by omega), hr.values _ (by omega) _ (by omega)]

end

/-- C109: a change of the values of the images which the measure follows does not change the disparities. Two successful executions on full
images, without estimation nor refinement, with disparities of whole pixels, the same window cost and the same intervals: the values of the left
image of the second are those of the first seen through `gl`, those of the right image through `gr`, with the same flags, and the measure of
windows seen through `gl` and `gr` is the measure seen through `φ`, which keeps the order of the scores. At each pixel of both rasters, both
are invalid, or the disparities are the same and the score of the second is the one of the first seen through `φ`. -/
theorem C109_regraded (w w' : World K) (user user' p p' mc mc' inp inp' l r l' r' : Fields) (out out' : List (Written K))
    (H W : Nat) (dRow dCol dRow' dCol' : Disp) (sr sc sr' sc' : Nat) (invalid invalid' : F K) (hw : Nat) (me : Measure)
    (ker : List (F K × F K) → F K) (gl gr φ : F K → F K) (wf : user.wf) (wf' : user'.wf)
    (hdisk : DiskContract w H W) (hpan : PandoraContract w) (hkeeps : PandoraKeeps w.pandora)
    (hdisk' : DiskContract w' H W) (hpan' : PandoraContract w') (hkeeps' : PandoraKeeps w'.pandora)
    (cfg : WholePixels w user p mc inp l r H W dRow dCol sr sc invalid hw me ker)
    (cfg' : WholePixels w' user' p' mc' inp' l' r' H W dRow' dCol' sr' sc' invalid' hw me ker)
    (hnd : ∀ left right, ImagesRead w l r none left right → right.noData ≠ .nan)
    (hnd' : ∀ left right, ImagesRead w' l' r' none left right → right.noData ≠ .nan)
    (hk : Follows ker gl gr φ)
    (himg : ∀ left right left' right', ImagesRead w l r none left right → ImagesRead w' l' r' none left' right' →
      Regraded gl left left' ∧ Regraded gr right right')
    (ir : ∀ x < H, ∀ y < W, SameIntervalMoved dRow dRow' x y x y) (ic : ∀ x < H, ∀ y < W, SameIntervalMoved dCol dCol' x y x y)
    (h : Main.main w user = (out, none)) (h' : Main.main w' user' = (out', none)) :
    ∃ files rest files' rest', out = .rasters files :: rest ∧ out' = .rasters files' :: rest' ∧
      (∀ f ∈ [files.row, files.col, files.score], (∀ i, i < f.h ↔ i * sr < H) ∧ ∀ j, j < f.w ↔ j * sc < W) ∧
      (∀ f ∈ [files'.row, files'.col, files'.score], (∀ i, i < f.h ↔ i * sr' < H) ∧ ∀ j, j < f.w ↔ j * sc' < W) ∧
      ∀ i j i' j' : Nat, i < files.row.h → j < files.row.w → i' < files'.row.h → j' < files'.row.w → i' * sr' = i * sr → j' * sc' = j * sc →
        BothInvalid invalid invalid' (files.row.values i j) (files.col.values i j) (files.score.values i j)
          (files'.row.values i' j') (files'.col.values i' j') (files'.score.values i' j') ∨
        files.score.values i j ≠ .nan ∧ files'.row.values i' j' = files.row.values i j ∧ files'.col.values i' j' = files.col.values i j ∧
          files'.score.values i' j' = φ (files.score.values i j) := by
  obtain ⟨files, rest, left, right, o, im, ⟨⟨s1, s2⟩, s3, s4⟩, z, key⟩ := whole_chosen cfg wf hdisk hpan hkeeps hnd h
  obtain ⟨files', rest', left', right', o', im', ⟨⟨s1', s2'⟩, s3', s4'⟩, z', key'⟩ := whole_chosen cfg' wf' hdisk' hpan' hkeeps' hnd' h'
  obtain ⟨gl', gr'⟩ := himg _ _ _ _ im im'
  refine ⟨files, rest, files', rest', o, o', z, z', fun i j i' j' hi hj hi' hj' e1 e2 => ?_⟩
  have bi : i * sr < H := ((z _ List.mem_cons_self).1 i).1 hi
  have bj : j * sc < W := ((z _ List.mem_cons_self).2 j).1 hj
  have k' := key' i' hi' j' hj'
  rw [e1, e2] at k'
  obtain ⟨r1, r2⟩ := ir _ bi _ bj
  obtain ⟨c1, c2⟩ := ic _ bi _ bj
  have hi' : ∀ u v, InIntervals dRow' dCol' ((i * sr : Nat) : Int) ((j * sc : Nat) : Int) u v ↔
      InIntervals dRow dCol ((i * sr : Nat) : Int) ((j * sc : Nat) : Int) u v := fun u v => by unfold InIntervals; rw [r1, r2, c1, c2]
  refine chosen_seen (key i hi j hj) k' hk.nan hk.order (fun t u v ⟨q1, q2, q3⟩ => ?_) fun t' u v ⟨q1, q2, q3⟩ => ?_
  · refine ⟨(hi' _ _).2 q1, (comparable_regraded gl' gr' (by omega) (by omega)).2 q2, ?_⟩
    rw [pairs_regraded gl' gr' q2.inside, hk.measure, q3]
  · have q2' := (comparable_regraded gl' gr' (by omega) (by omega)).1 q2
    refine ⟨_, ?_, (hi' _ _).1 q1, q2', rfl⟩
    rw [← q3, pairs_regraded gl' gr' q2'.inside, hk.measure]

theorem sumOf_affine (f : K → K → K) {k c j : K} (hk : 0 < k) (hj : 0 < j) (hf : ∀ x y, f (k * x + c) (k * y + c) = j * f x y) :
    Follows (sumOf f) (affine k c) (affine k c) (F.mul (.fin j)) := by
  have hk0 : k ≠ 0 := ne_of_gt hk
  have hj0 : j ≠ 0 := ne_of_gt hj
  refine ⟨fun l => ?_, fun s => ?_, fun s t => ?_⟩
  · induction l with
    | nil => simp [sumOf, F.mul]
    | cons x l ih =>
      obtain ⟨x1, x2⟩ := x
      cases x1 <;> cases x2 <;> simp only [List.map_cons, Prod.map_apply, affine, F.mul, F.add, if_neg hk0, if_pos hk, sumOf]
      rw [ih, hf]
      cases sumOf f l <;> simp [F.mul, hj0, hj, mul_add]
  · cases s <;> simp [F.mul, hj0, hj]
  · cases s <;> cases t <;> simp [F.mul, hj0, hj, F.le]

/-- Adding a constant to the two images and multiplying them by a positive number multiplies the scores of `sad` by it, -/
theorem sad_affine {k : K} (c : K) (hk : 0 < k) : Follows sad (affine k c) (affine k c) (F.mul (.fin k)) :=
  sumOf_affine _ hk hk fun x y => by
    rw [show k * x + c - (k * y + c) = k * (x - y) by ring, abs_mul, abs_of_pos hk]

/-- and those of `ssd` by its square. -/
theorem ssd_affine {k : K} (c : K) (hk : 0 < k) : Follows ssd (affine k c) (affine k c) (F.mul (.fin (k * k))) :=
  sumOf_affine _ hk (mul_pos hk hk) fun x y => by ring

/-! ## Overlapping images -/

theorem reaches_overlap {hw : Nat} {ker : List (F K × F K) → F K} {left right left' right' : Img K} {a b a' b' : Nat}
    {dRow dCol dRow' dCol' : Disp} (hl : SameWindow hw left left' a b a' b') (hr : SameDisplaced hw dRow dCol left right left' right' a b a' b')
    (ir : SameIntervalMoved dRow dRow' a b a' b') (ic : SameIntervalMoved dCol dCol' a b a' b') (t : F K) (u v : Int) :
    Reaches hw ker left' right' dRow' dCol' a' b' t u v ↔ Reaches hw ker left right dRow dCol a b t u v := by
  obtain ⟨r1, r2⟩ := ir
  obtain ⟨c1, c2⟩ := ic
  have hi : InIntervals dRow' dCol' a' b' u v ↔ InIntervals dRow dCol a b u v := by unfold InIntervals; rw [r1, r2, c1, c2]
  unfold Reaches
  rw [hi]
  refine and_congr_right fun q => ?_
  obtain ⟨nd, hr⟩ := hr
  obtain ⟨hin, hv⟩ := hr u v q
  have conv : ∀ (n o : Nat) (e : Int), (o : Int) + e ≤ n + hw → (n : Int) ≤ o + e + hw → (hw : Int) ≤ o + e →
      ∃ k < 2 * hw + 1, n = ((o : Int) + e + k - hw).toNat := fun n o e h1 h2 h3 =>
    ⟨((n : Int) + hw - o - e).toNat, by omega, by omega⟩
  have hc : Comparable hw left' right' a' b' u v ↔ Comparable hw left right a b u v := by
    constructor
    · rintro ⟨b1, b2, b3, b4⟩
      have b0 := b1
      have bi := hin.2 b1
      have hv := hv bi
      obtain ⟨⟨c1, c2, c3, c4⟩, c5, c6, c7, c8⟩ := bi
      obtain ⟨⟨d1, d2, d3, d4⟩, d5, d6, d7, d8⟩ := b1
      refine ⟨hin.2 b0, fun x y x1 x2 y1 y2 => ?_, ?_, fun x y x1 x2 y1 y2 => ?_⟩
      · have := (hl.1 (x + hw - a) (by omega) (y + hw - b) (by omega)).2
        rw [show a + (x + hw - a) - hw = x by omega, show b + (y + hw - b) - hw = y by omega] at this
        rw [← this]
        exact b2 _ _ (by omega) (by omega) (by omega) (by omega)
      · rw [← hl.2]; exact b3
      · obtain ⟨k1, g1, rfl⟩ := conv x a u x1 x2 (by omega)
        obtain ⟨k2, g2, rfl⟩ := conv y b v y1 y2 (by omega)
        rw [← hv k1 g1 k2 g2, ← nd]
        exact b4 _ _ (by omega) (by omega) (by omega) (by omega)
    · rintro ⟨b1, b2, b3, b4⟩
      have b0 := b1
      have bi := hin.1 b1
      have hv := hv b1
      obtain ⟨⟨c1, c2, c3, c4⟩, c5, c6, c7, c8⟩ := bi
      obtain ⟨⟨d1, d2, d3, d4⟩, d5, d6, d7, d8⟩ := b1
      refine ⟨hin.1 b0, fun x y x1 x2 y1 y2 => ?_, ?_, fun x y x1 x2 y1 y2 => ?_⟩
      · have := (hl.1 (x + hw - a') (by omega) (y + hw - b') (by omega)).2
        rw [show a' + (x + hw - a') - hw = x by omega, show b' + (y + hw - b') - hw = y by omega] at this
        rw [this]
        exact b2 _ _ (by omega) (by omega) (by omega) (by omega)
      · rw [hl.2]; exact b3
      · obtain ⟨k1, g1, rfl⟩ := conv x a' u x1 x2 (by omega)
        obtain ⟨k2, g2, rfl⟩ := conv y b' v y1 y2 (by omega)
        rw [hv k1 g1 k2 g2, nd]
        exact b4 _ _ (by omega) (by omega) (by omega) (by omega)
  rw [hc]
  refine and_congr_right fun q' => ?_
  have e : wholePairs hw left' right' a' b' u v = wholePairs hw left right a b u v := by
    unfold wholePairs
    refine List.flatMap_congr fun x hx => List.map_congr_left fun y hy => ?_
    rw [List.mem_range] at hx hy
    rw [(hl.1 x hx y hy).1, hv q'.inside x hx y hy]
  rw [e]

/-- C110: two images of the same scene, with different frames, give the same disparities where they overlap. Two successful executions on full
images, possibly of different sizes, without estimation nor refinement, with disparities of whole pixels and the same window cost. At a pixel
of the first and a pixel of the second which have the same intervals, whose left windows hold the same values and flags, and whose displaced
right windows hold the same values for all the pairs of the intervals, or are outside in both, the disparities and the score are the same,
except that each execution has its own invalid value. -/
theorem C110_overlap (w w' : World K) (user user' p p' mc mc' inp inp' l r l' r' : Fields) (out out' : List (Written K))
    (H W H' W' : Nat) (dRow dCol dRow' dCol' : Disp) (sr sc sr' sc' : Nat) (invalid invalid' : F K) (hw : Nat) (me : Measure)
    (ker : List (F K × F K) → F K) (wf : user.wf) (wf' : user'.wf)
    (hdisk : DiskContract w H W) (hpan : PandoraContract w) (hkeeps : PandoraKeeps w.pandora)
    (hdisk' : DiskContract w' H' W') (hpan' : PandoraContract w') (hkeeps' : PandoraKeeps w'.pandora)
    (cfg : WholePixels w user p mc inp l r H W dRow dCol sr sc invalid hw me ker)
    (cfg' : WholePixels w' user' p' mc' inp' l' r' H' W' dRow' dCol' sr' sc' invalid' hw me ker)
    (hnd : ∀ left right, ImagesRead w l r none left right → right.noData ≠ .nan)
    (hnd' : ∀ left right, ImagesRead w' l' r' none left right → right.noData ≠ .nan)
    (h : Main.main w user = (out, none)) (h' : Main.main w' user' = (out', none)) :
    ∃ files rest files' rest' left right left' right', out = .rasters files :: rest ∧ out' = .rasters files' :: rest' ∧
      ImagesRead w l r none left right ∧ ImagesRead w' l' r' none left' right' ∧
      (∀ f ∈ [files.row, files.col, files.score], (∀ i, i < f.h ↔ i * sr < H) ∧ ∀ j, j < f.w ↔ j * sc < W) ∧
      (∀ f ∈ [files'.row, files'.col, files'.score], (∀ i, i < f.h ↔ i * sr' < H') ∧ ∀ j, j < f.w ↔ j * sc' < W') ∧
      ∀ i j i' j' : Nat, i < files.row.h → j < files.row.w → i' < files'.row.h → j' < files'.row.w →
        SameIntervalMoved dRow dRow' (i * sr : Nat) (j * sc : Nat) (i' * sr' : Nat) (j' * sc' : Nat) →
        SameIntervalMoved dCol dCol' (i * sr : Nat) (j * sc : Nat) (i' * sr' : Nat) (j' * sc' : Nat) →
        SameWindow hw left left' (i * sr) (j * sc) (i' * sr') (j' * sc') →
        SameDisplaced hw dRow dCol left right left' right' (i * sr) (j * sc) (i' * sr') (j' * sc') →
        SamePixel invalid invalid' (files.row.values i j) (files.col.values i j) (files.score.values i j)
          (files'.row.values i' j') (files'.col.values i' j') (files'.score.values i' j') := by
  obtain ⟨files, rest, left, right, o, im, ⟨⟨s1, s2⟩, s3, s4⟩, z, key⟩ := whole_chosen cfg wf hdisk hpan hkeeps hnd h
  obtain ⟨files', rest', left', right', o', im', ⟨⟨s1', s2'⟩, s3', s4'⟩, z', key'⟩ := whole_chosen cfg' wf' hdisk' hpan' hkeeps' hnd' h'
  exact ⟨files, rest, files', rest', left, right, left', right', o, o', im, im', z, z', fun i j i' j' hi hj hi' hj' ir ic hl hr =>
    chosen_same (key i hi j hj) (key' i' hi' j' hj') (reaches_overlap hl hr ir ic)⟩

/-! ## More no-data -/

/-- C111: adding no-data never improves a score nor gives a disparity to a pixel which had none, and only changes the pixels which lose a pair
reaching their score. Two successful executions on full images, without estimation nor refinement, with disparities of whole pixels, the same
window cost and the same intervals: the second has more pixels flagged as no-data or invalid in its left image, and more no-data values in its
right image. At each pixel of both rasters, the second is invalid, or both are valid and the score of the first is at least as good; and
when every pair which reaches the score in the first can still be compared in the second, the disparities and the score are the same. -/
theorem C111_more_nodata (w w' : World K) (user user' p p' mc mc' inp inp' l r l' r' : Fields) (out out' : List (Written K))
    (H W : Nat) (dRow dCol dRow' dCol' : Disp) (sr sc sr' sc' : Nat) (invalid invalid' : F K) (hw : Nat) (me : Measure)
    (ker : List (F K × F K) → F K) (wf : user.wf) (wf' : user'.wf)
    (hdisk : DiskContract w H W) (hpan : PandoraContract w) (hkeeps : PandoraKeeps w.pandora)
    (hdisk' : DiskContract w' H W) (hpan' : PandoraContract w') (hkeeps' : PandoraKeeps w'.pandora)
    (cfg : WholePixels w user p mc inp l r H W dRow dCol sr sc invalid hw me ker)
    (cfg' : WholePixels w' user' p' mc' inp' l' r' H W dRow' dCol' sr' sc' invalid' hw me ker)
    (hnd : ∀ left right, ImagesRead w l r none left right → right.noData ≠ .nan)
    (hnd' : ∀ left right, ImagesRead w' l' r' none left right → right.noData ≠ .nan)
    (himg : ∀ left right left' right', ImagesRead w l r none left right → ImagesRead w' l' r' none left' right' →
      MoreFlags left left' ∧ MoreNoData right right')
    (ir : ∀ x < H, ∀ y < W, SameIntervalMoved dRow dRow' x y x y) (ic : ∀ x < H, ∀ y < W, SameIntervalMoved dCol dCol' x y x y)
    (h : Main.main w user = (out, none)) (h' : Main.main w' user' = (out', none)) :
    ∃ files rest files' rest' left right left' right', out = .rasters files :: rest ∧ out' = .rasters files' :: rest' ∧
      ImagesRead w l r none left right ∧ ImagesRead w' l' r' none left' right' ∧
      (∀ f ∈ [files.row, files.col, files.score], (∀ i, i < f.h ↔ i * sr < H) ∧ ∀ j, j < f.w ↔ j * sc < W) ∧
      (∀ f ∈ [files'.row, files'.col, files'.score], (∀ i, i < f.h ↔ i * sr' < H) ∧ ∀ j, j < f.w ↔ j * sc' < W) ∧
      ∀ i j i' j' : Nat, i < files.row.h → j < files.row.w → i' < files'.row.h → j' < files'.row.w → i' * sr' = i * sr → j' * sc' = j * sc →
        ((files'.row.values i' j' = invalid' ∧ files'.col.values i' j' = invalid' ∧ files'.score.values i' j' = invalid') ∨
          files.score.values i j ≠ .nan ∧ files'.score.values i' j' ≠ .nan ∧
            AtLeastAsGood me (files.score.values i j) (files'.score.values i' j')) ∧
        ((∀ u v, Reaches hw ker left right dRow dCol (i * sr) (j * sc) (files.score.values i j) u v →
            Comparable hw left' right' (i * sr) (j * sc) u v) →
          SamePixel invalid invalid' (files.row.values i j) (files.col.values i j) (files.score.values i j)
            (files'.row.values i' j') (files'.col.values i' j') (files'.score.values i' j')) := by
  obtain ⟨files, rest, left, right, o, im, ⟨⟨s1, s2⟩, s3, s4⟩, z, key⟩ := whole_chosen cfg wf hdisk hpan hkeeps hnd h
  obtain ⟨files', rest', left', right', o', im', ⟨⟨s1', s2'⟩, s3', s4'⟩, z', key'⟩ := whole_chosen cfg' wf' hdisk' hpan' hkeeps' hnd' h'
  obtain ⟨gl', gr', gr2⟩ := himg _ _ _ _ im im'
  refine ⟨files, rest, files', rest', left, right, left', right', o, o', im, im', z, z', fun i j i' j' hi hj hi' hj' e1 e2 => ?_⟩
  have bi : i * sr < H := ((z _ List.mem_cons_self).1 i).1 hi
  have bj : j * sc < W := ((z _ List.mem_cons_self).2 j).1 hj
  have k' := key' i' hi' j' hj'
  rw [e1, e2] at k'
  obtain ⟨r1, r2⟩ := ir _ bi _ bj
  obtain ⟨c1, c2⟩ := ic _ bi _ bj
  have hi' : ∀ u v, InIntervals dRow' dCol' ((i * sr : Nat) : Int) ((j * sc : Nat) : Int) u v ↔
      InIntervals dRow dCol ((i * sr : Nat) : Int) ((j * sc : Nat) : Int) u v := fun u v => by unfold InIntervals; rw [r1, r2, c1, c2]
  have hp : ∀ u v, Comparable hw left' right' (i * sr) (j * sc) u v →
      Comparable hw left right (i * sr) (j * sc) u v ∧
        wholePairs hw left' right' (i * sr) (j * sc) u v = wholePairs hw left right (i * sr) (j * sc) u v := by
    rintro u v ⟨b1, b2, b3, b4⟩
    have hin : BothInside hw left right u v (i * sr) (j * sc) := by
      unfold BothInside at b1 ⊢
      rw [s1, s2, s3, s4]
      rwa [s1', s2', s3', s4'] at b1
    have same : ∀ x y : Nat, ((i * sr : Nat) : Int) + u ≤ x + hw → (x : Int) ≤ (i * sr : Nat) + u + hw → ((j * sc : Nat) : Int) + v ≤ y + hw →
        (y : Int) ≤ (j * sc : Nat) + v + hw → right'.im x y = right.im x y := by
      intro x y x1 x2 y1 y2
      obtain ⟨⟨q1, q2, q3, q4⟩, q5, q6, q7, q8⟩ := hin
      rcases gr2 x (by omega) y (by omega) with e | e
      · exact e
      · exact absurd (by rw [e, gr']) (b4 x y x1 x2 y1 y2)
    have bi := hin
    obtain ⟨⟨q1, q2, q3, q4⟩, q5, q6, q7, q8⟩ := bi
    refine ⟨⟨hin, fun x y x1 x2 y1 y2 => ?_, ?_, fun x y x1 x2 y1 y2 => ?_⟩, ?_⟩
    · exact (gl'.values x (by omega) y (by omega) (b2 x y x1 x2 y1 y2)).1
    · exact gl'.valid _ (by omega) _ (by omega) b3
    · rw [← same x y x1 x2 y1 y2, ← gr']
      exact b4 x y x1 x2 y1 y2
    · unfold wholePairs
      refine List.flatMap_congr fun x hx => List.map_congr_left fun y hy => ?_
      rw [List.mem_range] at hx hy
      rw [same _ _ (by omega) (by omega) (by omega) (by omega),
        (gl'.values _ (by omega) _ (by omega) (b2 _ _ (by omega) (by omega) (by omega) (by omega))).2]
  obtain ⟨g1, g2⟩ := chosen_fewer (key i hi j hj) k' fun t u v _ ⟨q1, q2, q3⟩ =>
    ⟨(hi' _ _).1 q1, (hp u v q2).1, by rw [← q3, (hp u v q2).2]⟩
  exact ⟨g1, fun hr => g2 fun u v q => ⟨(hi' _ _).2 q.1, hr u v q, by rw [(hp u v (hr u v q)).2]; exact q.2.2⟩⟩

/-! ## Examples -/

/-- Whatever the two images, turned by half a turn, the initial disparities being opposite. -/
example (fl fr : Nat → Nat → F ℚ) : ∃ files rest files' rest',
    Main.main (exWorldT fl fr) (exUserSub 1 1 (.int 1)) = (.rasters files :: rest, none) ∧
    Main.main (exWorldT (fun x y => fl (2 - x) (2 - y)) (fun x y => fr (2 - x) (2 - y))) (exUserSub 1 1 (.int (-1))) = (.rasters files' :: rest', none) ∧
    ∀ i < 3, ∀ j < 3, files.score.values i j = files'.score.values (2 - i) (2 - j) := by
  obtain ⟨p, inp, cfg⟩ := exWorldT_whole fl fr 1
  obtain ⟨p', inp', cfg'⟩ := exWorldT_whole (fun x y => fl (2 - x) (2 - y)) (fun x y => fr (2 - x) (2 - y)) (-1)
  have r := exWorldT_runs fl fr 1 (.inl rfl)
  have r' := exWorldT_runs (fun x y => fl (2 - x) (2 - y)) (fun x y => fr (2 - x) (2 - y)) (-1) (.inr rfl)
  have ct := exWorldT_contract fl fr
  have ct' := exWorldT_contract (fun x y => fl (2 - x) (2 - y)) (fun x y => fr (2 - x) (2 - y))
  have mir : ∀ f : Nat → Nat → F ℚ, Mirrored true true (exImgT f) (exImgT fun x y => f (2 - x) (2 - y)) := fun f => by
    have e : ∀ x < 3, 2 - turned true 3 x = x := fun x hx => by simp only [turned, if_true]; omega
    refine ⟨rfl, fun x hx y hy => ?_, fun _ _ _ _ => rfl, fun _ _ _ _ => rfl⟩
    show f (2 - turned true 3 x) (2 - turned true 3 y) = f x y
    rw [e x hx, e y hy]
  have int : MirroredIntervals true true true ⟨.const 1, 1⟩ ⟨.const (-1), 1⟩ 3 3 := by
    intro x _ y _ z
    simp only [initAt, opposed, if_true]
    omega
  obtain ⟨files, rest, files', rest', left, right, o, o', im, z, z', key⟩ := C108_mirrored_partial true true _ _ _ _ _ _ _ _ _ _ _ _ _ _ _ _ 3 3
    _ _ _ _ 1 1 1 1 _ _ 0 .min sad
    (exUserSub_wf _ _ _ (by simp [J.wf])) (exUserSub_wf _ _ _ (by simp [J.wf])) ct.disk ct.pandora ct.keeps ct'.disk ct'.pandora ct'.keeps
    cfg cfg' (sumOf_orderFree _) (fun left right left' right' h h' => by
      obtain ⟨rfl, rfl⟩ := exWorldT_images _ _ _ _ h
      obtain ⟨rfl, rfl⟩ := exWorldT_images _ _ _ _ h'
      exact ⟨mir fl, mir fr⟩)
    (fun left right h => by obtain ⟨rfl, rfl⟩ := exWorldT_images _ _ _ _ h; simp [exImgT, exLeftImg]) int int r r'
  have b := z _ List.mem_cons_self
  have b' := z' _ List.mem_cons_self
  refine ⟨files, rest, files', rest', by rw [r, o], by rw [r', o'], fun i hi j hj => ?_⟩
  rcases key i j (2 - i) (2 - j) ((b.1 i).2 (by omega)) ((b.2 j).2 (by omega)) ((b'.1 _).2 (by omega)) ((b'.2 _).2 (by omega))
    (by simp only [turned, if_true]; omega) (by simp only [turned, if_true]; omega) with q | q
  · rw [q.2.2.1, q.2.2.2.2.2]
  · exact q.1

/-- On constant images all the pairs inside the images have the cost zero. -/
theorem exFlat_reaches (n : Int) (a b : Nat) (u v : Int) (t : F ℚ) :
    Reaches 0 sad (exImgT fun _ _ => .fin 5) (exImgT fun _ _ => .fin 5) ⟨.const n, 1⟩ ⟨.const n, 1⟩ a b t u v ↔
      (n - 1 ≤ u ∧ u ≤ n + 1) ∧ (n - 1 ≤ v ∧ v ≤ n + 1) ∧ (a < 3 ∧ b < 3) ∧ (0 ≤ a + u ∧ a + u < 3) ∧ (0 ≤ b + v ∧ b + v < 3) ∧ t = .fin 0 := by
  have hp : sad (wholePairs 0 (exImgT fun _ _ => .fin 5) (exImgT fun _ _ => .fin 5) a b u v) = (.fin 0 : F ℚ) := by
    simp [wholePairs, exImgT, sad, sumOf, F.add]
  unfold Reaches
  rw [hp]
  constructor
  · rintro ⟨⟨⟨q1, q2⟩, q3, q4⟩, ⟨⟨⟨c1, c2, c3, c4⟩, c5, c6, c7, c8⟩, -⟩, rfl⟩
    simp only [initAt, exImgT, exLeftImg] at q1 q2 q3 q4 c1 c2 c3 c4 c5 c6 c7 c8
    exact ⟨⟨by omega, by omega⟩, ⟨by omega, by omega⟩, ⟨by omega, by omega⟩, ⟨by omega, by omega⟩, ⟨by omega, by omega⟩, rfl⟩
  · rintro ⟨⟨q1, q2⟩, ⟨q3, q4⟩, ⟨q5, q6⟩, ⟨q7, q8⟩, ⟨q9, q10⟩, rfl⟩
    refine ⟨⟨⟨q1, q2⟩, q3, q4⟩, ⟨⟨?_, ?_⟩, fun _ _ _ _ _ _ => rfl, rfl, fun _ _ _ _ _ _ => ?_⟩, rfl⟩
    · simp only [exImgT, exLeftImg]
      exact ⟨by omega, by omega, by omega, by omega⟩
    · simp only [exImgT, exLeftImg]
      exact ⟨by omega, by omega, by omega, by omega⟩
    · show F.fin (5 : ℚ) ≠ .fin (-1)
      norm_num

/-- The full claim of C108 is false of the code: on constant images, where all the pairs are equally good, the smallest disparities are taken
in both executions. -/
theorem C108_false : ¬ ∀ (tr tc : Bool) (w w' : World ℚ) (user user' p p' mc mc' inp inp' l r l' r' : Fields) (out out' : List (Written ℚ))
    (H W : Nat) (dRow dCol dRow' dCol' : Disp) (sr sc sr' sc' : Nat) (invalid invalid' : F ℚ) (hw : Nat) (me : Measure)
    (ker : List (F ℚ × F ℚ) → F ℚ), user.wf → user'.wf →
    DiskContract w H W → PandoraContract w → PandoraKeeps w.pandora → DiskContract w' H W → PandoraContract w' → PandoraKeeps w'.pandora →
    WholePixels w user p mc inp l r H W dRow dCol sr sc invalid hw me ker →
    WholePixels w' user' p' mc' inp' l' r' H W dRow' dCol' sr' sc' invalid' hw me ker → OrderFree ker →
    (∀ left right left' right', ImagesRead w l r none left right → ImagesRead w' l' r' none left' right' →
      Mirrored tr tc left left' ∧ Mirrored tr tc right right') →
    (∀ left right, ImagesRead w l r none left right → right.noData ≠ .nan) →
    MirroredIntervals tr tc tr dRow dRow' H W → MirroredIntervals tr tc tc dCol dCol' H W →
    Main.main w user = (out, none) → Main.main w' user' = (out', none) →
    ∃ files rest files' rest', out = .rasters files :: rest ∧ out' = .rasters files' :: rest' ∧
      ∀ i j i' j' : Nat, i < files.row.h → j < files.row.w → i' < files'.row.h → j' < files'.row.w →
        i' * sr' = turned tr H (i * sr) → j' * sc' = turned tc W (j * sc) →
        BothInvalid invalid invalid' (files.row.values i j) (files.col.values i j) (files.score.values i j)
          (files'.row.values i' j') (files'.col.values i' j') (files'.score.values i' j') ∨
        ∃ x y : Int, files.row.values i j = .fin (x : ℚ) ∧ files.col.values i j = .fin (y : ℚ) ∧
          files'.row.values i' j' = .fin ((opposed tr x : Int) : ℚ) ∧ files'.col.values i' j' = .fin ((opposed tc y : Int) : ℚ) := by
  intro hst
  set c : Nat → Nat → F ℚ := fun _ _ => .fin 5 with hc
  obtain ⟨p, inp, cfg⟩ := exWorldT_whole c c 1
  obtain ⟨p', inp', cfg'⟩ := exWorldT_whole c c (-1)
  have r := exWorldT_runs c c 1 (.inl rfl)
  have r' := exWorldT_runs c c (-1) (.inr rfl)
  have ct := exWorldT_contract c c
  have int : MirroredIntervals true true true ⟨.const 1, 1⟩ ⟨.const (-1), 1⟩ 3 3 := by
    intro x _ y _ z
    simp only [initAt, opposed, if_true]
    omega
  have nd : ∀ left right, ImagesRead (exWorldT c c) exL exR none left right → right.noData ≠ .nan := fun left right h => by
    obtain ⟨rfl, rfl⟩ := exWorldT_images _ _ _ _ h; simp [exImgT, exLeftImg]
  have mir : Mirrored true true (exImgT c) (exImgT c) := ⟨rfl, fun _ _ _ _ => rfl, fun _ _ _ _ => rfl, fun _ _ _ _ => rfl⟩
  have wf : ∀ n, (exUserSub 1 1 (.int n)).wf := fun n => exUserSub_wf _ _ _ (by simp [J.wf])
  obtain ⟨files, rest, files', rest', o, o', key⟩ := hst true true _ _ _ _ _ _ _ _ _ _ _ _ _ _ _ _ 3 3 _ _ _ _ 1 1 1 1 _ _ 0 .min sad (wf 1) (wf (-1))
    ct.disk ct.pandora ct.keeps ct.disk ct.pandora ct.keeps cfg cfg' (sumOf_orderFree _) (fun left right left' right' h h' => by
      obtain ⟨rfl, rfl⟩ := exWorldT_images _ _ _ _ h
      obtain ⟨rfl, rfl⟩ := exWorldT_images _ _ _ _ h'
      exact ⟨mir, mir⟩) nd int int r r'
  obtain ⟨files1, rest1, left, right, o1, im, -, z, k⟩ := whole_chosen cfg (wf 1) ct.disk ct.pandora ct.keeps nd r
  obtain ⟨files2, rest2, left', right', o2, im', -, z', k'⟩ := whole_chosen cfg' (wf (-1)) ct.disk ct.pandora ct.keeps nd r'
  obtain ⟨rfl, rfl⟩ := exWorldT_images _ _ _ _ im
  obtain ⟨rfl, rfl⟩ := exWorldT_images _ _ _ _ im'
  rw [o, List.cons.injEq, Written.rasters.injEq] at o1
  rw [o', List.cons.injEq, Written.rasters.injEq] at o2
  obtain ⟨rfl, -⟩ := o1
  obtain ⟨rfl, -⟩ := o2
  have b := z _ List.mem_cons_self
  have b' := z' _ List.mem_cons_self
  have k1 := k 0 ((b.1 _).2 (by decide)) 0 ((b.2 _).2 (by decide))
  have k2 := k' 2 ((b'.1 _).2 (by decide)) 2 ((b'.2 _).2 (by decide))
  have row1 : files.row.values 0 0 = .fin ((0 : Int) : ℚ) ∧ files.score.values 0 0 ≠ .nan := by
    rcases k1 with ⟨-, n⟩ | ⟨hs, x, y, ex, -, ⟨v, hv⟩, -, hm, -⟩
    · exact absurd (n (.fin 0) 0 0 ((exFlat_reaches _ _ _ _ _ _).2 (by simp))) (by simp)
    · have h1 := (exFlat_reaches _ _ _ _ _ _).1 hv
      have h2 := hm 0 0 ((exFlat_reaches _ _ _ _ _ _).2 ⟨by simp, by simp, by simp, by simp, by simp, h1.2.2.2.2.2⟩)
      rw [ex, show x = 0 by omega]
      exact ⟨rfl, hs⟩
  have row2 : files'.row.values 2 2 = .fin ((-2 : Int) : ℚ) := by
    rcases k2 with ⟨-, n⟩ | ⟨hs, x, y, ex, -, ⟨v, hv⟩, -, hm, -⟩
    · exact absurd (n (.fin 0) 0 0 ((exFlat_reaches _ _ _ _ _ _).2 (by simp))) (by simp)
    · have h1 := (exFlat_reaches _ _ _ _ _ _).1 hv
      have h2 := hm (-2) (-2) ((exFlat_reaches _ _ _ _ _ _).2 ⟨by simp, by simp, by simp, by simp, by simp, h1.2.2.2.2.2⟩)
      rw [ex, show x = -2 by omega]
  rcases key 0 0 2 2 ((b.1 _).2 (by decide)) ((b.2 _).2 (by decide)) ((b'.1 _).2 (by decide)) ((b'.2 _).2 (by decide)) rfl rfl with
    ⟨-, -, q, -⟩ | ⟨x, y, e1, -, e2, -⟩
  · exact row1.2 q
  · rw [row1.1, F.fin.injEq, Int.cast_inj] at e1
    rw [row2, ← e1, F.fin.injEq, Int.cast_inj] at e2
    exact absurd e2 (by decide)

/-- Two images and the images of another radiometry. -/
example (fl fr : Nat → Nat → F ℚ) : ∃ files rest files' rest',
    Main.main (exWorldT fl fr) (exUserSub 1 1 (.int 1)) = (.rasters files :: rest, none) ∧
    Main.main (exWorldT (fun x y => affine 2 1 (fl x y)) (fun x y => affine 2 1 (fr x y))) (exUserSub 1 1 (.int 1)) = (.rasters files' :: rest', none) ∧
    ∀ i < 3, ∀ j < 3, files'.row.values i j = files.row.values i j ∧ files'.col.values i j = files.col.values i j ∧
      files'.score.values i j = F.mul (.fin 2) (files.score.values i j) := by
  obtain ⟨p, inp, cfg⟩ := exWorldT_whole fl fr 1
  obtain ⟨p', inp', cfg'⟩ := exWorldT_whole (fun x y => affine 2 1 (fl x y)) (fun x y => affine 2 1 (fr x y)) 1
  have r := exWorldT_runs fl fr 1 (.inl rfl)
  have r' := exWorldT_runs (fun x y => affine 2 1 (fl x y)) (fun x y => affine 2 1 (fr x y)) 1 (.inl rfl)
  have ct := exWorldT_contract fl fr
  have ct' := exWorldT_contract (fun x y => affine 2 1 (fl x y)) (fun x y => affine 2 1 (fr x y))
  have inj : ∀ v : F ℚ, affine 2 1 v = affine 2 1 (.fin (-1)) → v = .fin (-1) := by
    intro v h
    cases v <;> simp [affine, F.mul, F.add] at h ⊢
    linarith
  have reg : ∀ f : Nat → Nat → F ℚ, Regraded (affine 2 1) (exImgT f) (exImgT fun x y => affine 2 1 (f x y)) := fun f =>
    ⟨by simp [exImgT, exLeftImg, affine, F.mul, F.add]; norm_num, fun _ _ _ _ => rfl, fun x _ y _ h => inj _ h, fun _ _ _ _ => rfl,
      fun _ _ _ _ => rfl⟩
  have nd : ∀ f g left right, ImagesRead (exWorldT f g) exL exR none left right → right.noData ≠ .nan := fun f g left right h => by
    obtain ⟨rfl, rfl⟩ := exWorldT_images _ _ _ _ h; simp [exImgT, exLeftImg]
  obtain ⟨files, rest, files', rest', o, o', z, z', key⟩ := C109_regraded _ _ _ _ _ _ _ _ _ _ _ _ _ _ _ _ 3 3
    _ _ _ _ 1 1 1 1 _ _ 0 .min sad (affine 2 1) (affine 2 1) (F.mul (.fin 2))
    (exUserSub_wf _ _ _ (by simp [J.wf])) (exUserSub_wf _ _ _ (by simp [J.wf])) ct.disk ct.pandora ct.keeps ct'.disk ct'.pandora ct'.keeps
    cfg cfg' (nd _ _) (nd _ _) (sad_affine 1 (by norm_num)) (fun left right left' right' h h' => by
      obtain ⟨rfl, rfl⟩ := exWorldT_images _ _ _ _ h
      obtain ⟨rfl, rfl⟩ := exWorldT_images _ _ _ _ h'
      exact ⟨reg fl, reg fr⟩) (fun _ _ _ _ => ⟨rfl, rfl⟩) (fun _ _ _ _ => ⟨rfl, rfl⟩) r r'
  have b := z _ List.mem_cons_self
  have b' := z' _ List.mem_cons_self
  refine ⟨files, rest, files', rest', by rw [r, o], by rw [r', o'], fun i hi j hj => ?_⟩
  rcases key i j i j ((b.1 i).2 (by omega)) ((b.2 j).2 (by omega)) ((b'.1 _).2 (by omega)) ((b'.2 _).2 (by omega)) rfl rfl with
    ⟨q1, q2, q3, q4, q5, q6⟩ | q
  · rw [q1, q2, q3, q4, q5, q6]
    exact ⟨rfl, rfl, rfl⟩
  · exact q.2

/-- A disparity of one row and no column. -/
def exUserRow : Fields := dict [("input", .obj exInputOne), ("pipeline", .obj (dict [("matching_cost", .obj (exMc 1 1)),
    ("disparity", .obj (dict [("disparity_method", .str "wta"), ("invalid_disparity", .str "NaN")]))]))]

theorem exUserRow_wf : exUserRow.wf := by
  simp [exUserRow, exInputOne, exMc, dict, Fields.wf, J.wf, Fields.keys]

theorem exUserRow_runs (fl fr : Nat → Nat → F ℚ) :
    Main.main (exWorldT fl fr) exUserRow = ((Main.main (exWorldT fl fr) exUserRow).1, none) := by
  have : (Main.main (exWorldT fl fr) exUserRow).2 = none := by
    obtain ⟨m, cfg, h⟩ := accepted_ok (w := exWorldP) (user := exUserRow) (by decide +kernel)
    refine (C99_runs_exactly (exWorldT fl fr) _ _ _ cfg m 3 3 1 1 exUserRow_wf (exWorldT_contract fl fr) rfl ?_ rfl
      (.inl ⟨_, _, rfl, .inl rfl, .inl rfl⟩) rfl ⟨by decide, by decide⟩ (fun _ _ _ _ => ⟨_, _, rfl⟩) h).2 ⟨.inl ⟨rfl, rfl⟩, ?_⟩
    · simp [dict, Fields.keys]
    · intro f hf
      simp [dict, Fields.get] at hf
  exact Prod.ext rfl this

theorem exUserRow_whole (fl fr : Nat → Nat → F ℚ) :
    ∃ p inp, WholePixels (exWorldT fl fr) exUserRow p (exMc 1 1) inp exL exR 3 3 ⟨.const 1, 0⟩ ⟨.const 0, 0⟩ 1 1 .nan 0 .min sad :=
  ⟨_, _, rfl, rfl, rfl, rfl, rfl, rfl, rfl, rfl, ⟨_, _, _, _, _, .int 1, rfl, rfl, rfl, .inl rfl, rfl, rfl⟩,
    ⟨⟨_, rfl, ⟨_, _, _, rfl, rfl, rfl, .inl rfl, .inl ⟨_, .inl rfl, rfl⟩⟩, ⟨_, _, _, rfl, rfl, rfl, .inl rfl, .inl ⟨_, .inl rfl, rfl⟩⟩⟩,
    .inr ⟨rfl, rfl, rfl, rfl, rfl⟩,
    ⟨_, _, _, rfl, rfl, rfl, .inl ⟨_, _, rfl, .inl rfl, .inl rfl⟩, .inl ⟨_, rfl, .inr (.inr (.inl ⟨rfl, rfl⟩))⟩⟩⟩⟩

/-- Images of a scene, and images of the same scene which start one row below: the first row of the second gives the same as the second row of
the first. -/
example (fl fr : Nat → Nat → F ℚ) : ∃ files rest files' rest',
    Main.main (exWorldT fl fr) exUserRow = (.rasters files :: rest, none) ∧
    Main.main (exWorldT (fun x y => fl (x + 1) y) (fun x y => fr (x + 1) y)) exUserRow = (.rasters files' :: rest', none) ∧
    ∀ j < 3, SamePixel .nan .nan (files.row.values 1 j) (files.col.values 1 j) (files.score.values 1 j)
      (files'.row.values 0 j) (files'.col.values 0 j) (files'.score.values 0 j) := by
  obtain ⟨p, inp, cfg⟩ := exUserRow_whole fl fr
  obtain ⟨p', inp', cfg'⟩ := exUserRow_whole (fun x y => fl (x + 1) y) (fun x y => fr (x + 1) y)
  have r := exUserRow_runs fl fr
  have r' := exUserRow_runs (fun x y => fl (x + 1) y) (fun x y => fr (x + 1) y)
  have ct := exWorldT_contract fl fr
  have ct' := exWorldT_contract (fun x y => fl (x + 1) y) (fun x y => fr (x + 1) y)
  have nd : ∀ f g left right, ImagesRead (exWorldT f g) exL exR none left right → right.noData ≠ .nan := fun f g left right h => by
    obtain ⟨rfl, rfl⟩ := exWorldT_images _ _ _ _ h; simp [exImgT, exLeftImg]
  obtain ⟨files, rest, files', rest', left, right, left', right', o, o', im, im', z, z', key⟩ := C110_overlap _ _ _ _ _ _ _ _ _ _ _ _ _ _ _ _
    3 3 3 3 _ _ _ _ 1 1 1 1 _ _ 0 .min sad exUserRow_wf exUserRow_wf ct.disk ct.pandora ct.keeps ct'.disk ct'.pandora ct'.keeps
    cfg cfg' (nd _ _) (nd _ _) r r'
  obtain ⟨rfl, rfl⟩ := exWorldT_images _ _ _ _ im
  obtain ⟨rfl, rfl⟩ := exWorldT_images _ _ _ _ im'
  have b := z _ List.mem_cons_self
  have b' := z' _ List.mem_cons_self
  refine ⟨files, rest, files', rest', by rw [r, o], by rw [r', o'], fun j hj => ?_⟩
  refine key 1 j 0 j ((b.1 1).2 (by decide)) ((b.2 j).2 (by omega)) ((b'.1 _).2 (by decide)) ((b'.2 _).2 (by omega)) ⟨rfl, rfl⟩ ⟨rfl, rfl⟩
    ⟨fun x hx y hy => ⟨?_, rfl⟩, rfl⟩ ⟨rfl, fun dr dc h => ?_⟩
  · show fl (0 * 1 + x - 0 + 1) _ = fl (1 * 1 + x - 0) _
    congr 1
    omega
  · obtain ⟨⟨h1, h2⟩, h3, h4⟩ := h
    simp only [initAt] at h1 h2 h3 h4
    obtain rfl : dr = 1 := by omega
    obtain rfl : dc = 0 := by omega
    refine ⟨?_, fun _ x hx y hy => ?_⟩
    · unfold BothInside
      simp only [exImgT, exLeftImg]
      omega
    · obtain rfl : x = 0 := by omega
      rfl

/-- The first pixel of the right image becomes no-data. -/
example (fl fr : Nat → Nat → F ℚ) : ∃ files rest files' rest',
    Main.main (exWorldT fl fr) (exUserSub 1 1 (.int 1)) = (.rasters files :: rest, none) ∧
    Main.main (exWorldT fl (fun x y => if x = 0 ∧ y = 0 then .fin (-1) else fr x y)) (exUserSub 1 1 (.int 1)) = (.rasters files' :: rest', none) ∧
    ∀ i < 3, ∀ j < 3, files'.score.values i j = .nan ∨ AtLeastAsGood .min (files.score.values i j) (files'.score.values i j) := by
  obtain ⟨p, inp, cfg⟩ := exWorldT_whole fl fr 1
  obtain ⟨p', inp', cfg'⟩ := exWorldT_whole fl (fun x y => if x = 0 ∧ y = 0 then .fin (-1) else fr x y) 1
  have r := exWorldT_runs fl fr 1 (.inl rfl)
  have r' := exWorldT_runs fl (fun x y => if x = 0 ∧ y = 0 then .fin (-1) else fr x y) 1 (.inl rfl)
  have ct := exWorldT_contract fl fr
  have ct' := exWorldT_contract fl (fun x y => if x = 0 ∧ y = 0 then .fin (-1) else fr x y)
  have nd : ∀ f g left right, ImagesRead (exWorldT f g) exL exR none left right → right.noData ≠ .nan := fun f g left right h => by
    obtain ⟨rfl, rfl⟩ := exWorldT_images _ _ _ _ h; simp [exImgT, exLeftImg]
  obtain ⟨files, rest, files', rest', left, right, left', right', o, o', im, im', z, z', key⟩ := C111_more_nodata _ _ _ _ _ _ _ _ _ _ _ _ _ _ _ _
    3 3 _ _ _ _ 1 1 1 1 _ _ 0 .min sad
    (exUserSub_wf _ _ _ (by simp [J.wf])) (exUserSub_wf _ _ _ (by simp [J.wf])) ct.disk ct.pandora ct.keeps ct'.disk ct'.pandora ct'.keeps
    cfg cfg' (nd _ _) (nd _ _) (fun left right left' right' h h' => by
      obtain ⟨rfl, rfl⟩ := exWorldT_images _ _ _ _ h
      obtain ⟨rfl, rfl⟩ := exWorldT_images _ _ _ _ h'
      refine ⟨⟨fun _ _ _ _ _ => ⟨rfl, rfl⟩, fun _ _ _ _ _ => rfl⟩, rfl, fun x _ y _ => ?_⟩
      by_cases q : x = 0 ∧ y = 0
      · exact .inr (if_pos q)
      · exact .inl (if_neg q)) (fun _ _ _ _ => ⟨rfl, rfl⟩) (fun _ _ _ _ => ⟨rfl, rfl⟩) r r'
  have b := z _ List.mem_cons_self
  have b' := z' _ List.mem_cons_self
  refine ⟨files, rest, files', rest', by rw [r, o], by rw [r', o'], fun i hi j hj => ?_⟩
  rcases (key i j i j ((b.1 i).2 (by omega)) ((b.2 j).2 (by omega)) ((b'.1 _).2 (by omega)) ((b'.2 _).2 (by omega)) rfl rfl).1 with q | q
  · exact .inl q.2.2
  · exact .inr q.2.2

end Verif.Props
