import Verif.Lemmas.OpticalFlow
import Mathlib.Data.Rat.Floor

/-!
# Properties C50 to C52: the optical flow refinement
-/

set_option linter.unusedSectionVars false

namespace Verif.Props

open Verif Verif.ImgTools Verif.OpticalFlow Verif.Spec

variable {K : Type} [Field K] [LinearOrder K] [IsStrictOrderedRing K] [FloorRing K]
variable {e : Ext K} {junk : Nat → Nat → Win K} {cfg : Cfg} {cv : CostCoords} {invalid : F K}
variable {rowMap colMap : Arr2 (F K)} {left right : Img K} {rowDisp colDisp : MinMax} {r0 c0 : Int}
variable {oc orr : Arr2 (F K)}

/-! ## C50: shape and alignment -/

theorem extrema_small {a : Arr1 Int} {start : Int} {step offset : Nat} (h : RegularAxis a start step)
    (hn : a.n ≤ 2 * lost offset step) :
    (∃ x, extrema a offset = .error x) ∨ ∃ x, extrema a offset = .ok x ∧ (labelSlice a x.1 x.2).2 = 0 := by
  unfold extrema
  by_cases h0 : a.n = 0
  · left; exact ⟨_, by rw [if_pos h0]⟩
  · rw [if_neg h0]
    have e0 : a.get 0 = start := by rw [h.get 0 (by omega)]; simp
    have e1 := h.get (a.n - 1) (by omega)
    rcases Nat.lt_or_ge (lost offset step) a.n with hl | hl
    · right
      unfold nearestUp nearestDown
      rw [e0, e1, searchLeft_first h offset (by omega), searchRight_last h offset (by omega), if_pos hl, if_neg h0,
        if_neg (by omega)]
      refine ⟨_, rfl, ?_⟩
      unfold labelSlice
      simp only
      rw [searchLeft_get h _ hl, searchRight_get h _ (by omega)]
      omega
    · left
      have : searchLeft a (start + offset) = a.n := by
        apply searchLeft_eq h _ _ le_rfl
        intro i hi
        have h2 := lost_le_iff (offset := offset) h.pos i
        have h3 : ¬ offset ≤ i * step := fun hh => by have := h2.2 hh; omega
        have : ((i * step : Nat) : Int) < offset := by exact_mod_cast Nat.lt_of_not_le h3
        push_cast at this
        omega
      unfold nearestUp
      rw [e0, this, if_neg (lt_irrefl _)]
      exact ⟨_, rfl⟩

/-- An axis has an inner point when it is longer than what is lost at both ends. -/
theorem inner_exists {a : Arr1 Int} {start : Int} {step offset : Nat} (h : RegularAxis a start step)
    (hn : ¬ ∃ k, InnerIdx a offset k) : a.n ≤ 2 * lost offset step := by
  by_contra hc
  exact hn ⟨lost offset step, (innerIdx_iff h offset _).2 ⟨by omega, le_rfl, by omega⟩⟩

/-- Images without any inner point (smaller than the window) make the refinement raise. -/
theorem C50_small_raises (S : FlowSetting cfg cv rowMap colMap left r0 c0)
    (h : (¬ ∃ k, InnerIdx cv.row cv.offset k) ∨ ¬ ∃ k, InnerIdx cv.col cv.offset k) :
    ∃ x, refinementMethod e junk cfg cv invalid rowMap colMap left right rowDisp colDisp = .error x := by
  unfold refinementMethod
  rcases hc : extrema cv.col cv.offset with x | xc
  · exact ⟨x, rfl⟩
  rcases hr : extrema cv.row cv.offset with x | xr
  · exact ⟨x, rfl⟩
  have hz : (labelSlice cv.row xr.1 xr.2).2 * (labelSlice cv.col xc.1 xc.2).2 = 0 := by
    rcases h with h | h
    · rcases extrema_small S.rowReg (inner_exists S.rowReg h) with ⟨x, hx⟩ | ⟨x, hx, hx0⟩
      · rw [hr] at hx; simp at hx
      · rw [hr] at hx
        obtain rfl := Except.ok.inj hx
        rw [hx0, Nat.zero_mul]
    · rcases extrema_small S.colReg (inner_exists S.colReg h) with ⟨x, hx⟩ | ⟨x, hx, hx0⟩
      · rw [hc] at hx; simp at hx
      · rw [hc] at hx
        obtain rfl := Except.ok.inj hx
        rw [hx0, Nat.mul_zero]
  have hl := reshapeLeft_empty left cfg.windowSize cv.offset (OpticalFlow.Arr1.sub cv.row (labelSlice cv.row xr.1 xr.2))
      (OpticalFlow.Arr1.sub cv.col (labelSlice cv.col xc.1 xc.2)) hz
  obtain ⟨x, hx⟩ := hl
  simp only [Bind.bind, Except.bind, hx]
  exact ⟨_, rfl⟩

/-- The inner part of an axis. -/
theorem sub_get {a : Arr1 Int} (b m k : Nat) : (OpticalFlow.Arr1.sub a (b, m)).get k = a.get (b + k) := rfl

theorem right_patch_spec {img : Img K} {half : Nat} {row col : Int} {dr dc : F K} {w : Win K}
    (h : rightPatch invalid img (2 * half + 1) row col dr dc = .ok w) :
    ∃ sr sc, StartShift invalid dr sr ∧ StartShift invalid dc sc ∧ w = rightWindow img half (row + sr) (col + sc) := by
  unfold rightPatch at h
  rcases h1 : shiftOf invalid dc with x | sc
  · rw [h1] at h; simp at h
  rcases h2 : shiftOf invalid dr with x | sr
  · rw [h1, h2] at h; simp at h
  rw [h1, h2] at h
  have := Except.ok.inj h
  refine ⟨sr, sc, shiftOf_spec h2, shiftOf_spec h1, ?_⟩
  rw [← this, patchAt_eq]

/-- Shape of the padded map and its cells. -/
theorem padded_ok {h w size nr nc : Nat} {delta : Nat → F K} {out : Arr2 (F K)}
    (hp : padded invalid h w size nr nc delta = .ok out) :
    out.h = h ∧ out.w = w ∧ ∀ r c, out.get r c =
      if (h - nr) / 2 ≤ r ∧ r < (h - nr) / 2 + nr ∧ (w - nc) / 2 ≤ c ∧ c < (w - nc) / 2 + nc then
        delta ((r - (h - nr) / 2) * nc + (c - (w - nc) / 2)) else invalid := by
  unfold padded at hp
  split_ifs at hp
  have := Except.ok.inj hp
  subst this
  exact ⟨rfl, rfl, fun _ _ => rfl⟩

/-- C50: the refined maps have the shape of the cost volumes; the value at a pixel whose window fits comes from the windows and
the initial disparity of this pixel alone, and every other pixel is invalid. -/
theorem C50_aligned (S : FlowSetting cfg cv rowMap colMap left r0 c0)
    (h : refinementMethod e junk cfg cv invalid rowMap colMap left right rowDisp colDisp = .ok (oc, orr)) :
    (oc.h = rowMap.h ∧ oc.w = rowMap.w ∧ orr.h = rowMap.h ∧ orr.w = rowMap.w) ∧
    ∀ r c, r < rowMap.h → c < rowMap.w →
      (InnerIdx cv.row cv.offset r ∧ InnerIdx cv.col cv.offset c →
        ∃ sr sc, StartShift invalid (rowMap.get r c) sr ∧ StartShift invalid (colMap.get r c) sc ∧
          let t := trajectory (lucasKanade e invalid) e.warp (windowOf left cv.offset (cv.row.get r) (cv.col.get c))
            cfg.iterations (rightWindow right cv.offset (cv.row.get r + sr) (cv.col.get c + sc))
            (rowMap.get r c, colMap.get r c)
          orr.get r c = insideOr invalid (rowDisp.lo.get (r * cv.stepRow) (c * cv.stepCol))
            (rowDisp.hi.get (r * cv.stepRow) (c * cv.stepCol)) t.1 ∧
          oc.get r c = insideOr invalid (colDisp.lo.get (r * cv.stepRow) (c * cv.stepCol))
            (colDisp.hi.get (r * cv.stepRow) (c * cv.stepCol)) t.2) ∧
      (¬ (InnerIdx cv.row cv.offset r ∧ InnerIdx cv.col cv.offset c) →
        oc.get r c = invalid ∧ orr.get r c = invalid) := by
  have hir : ∃ k, InnerIdx cv.row cv.offset k := by
    by_contra hc
    obtain ⟨x, hx⟩ := C50_small_raises (e := e) (junk := junk) (invalid := invalid) (right := right) (rowDisp := rowDisp)
      (colDisp := colDisp) S (.inl hc)
    rw [hx] at h; simp at h
  have hic : ∃ k, InnerIdx cv.col cv.offset k := by
    by_contra hc
    obtain ⟨x, hx⟩ := C50_small_raises (e := e) (junk := junk) (invalid := invalid) (right := right) (rowDisp := rowDisp)
      (colDisp := colDisp) S (.inr hc)
    rw [hx] at h; simp at h
  have hr2 : 2 * lost cv.offset cv.stepRow < cv.row.n := by
    obtain ⟨k, hk⟩ := hir
    rw [innerIdx_iff S.rowReg] at hk; omega
  have hc2 : 2 * lost cv.offset cv.stepCol < cv.col.n := by
    obtain ⟨k, hk⟩ := hic
    rw [innerIdx_iff S.colReg] at hk; omega
  unfold refinementMethod at h
  rw [extrema_ok S.colReg _ hc2, extrema_ok S.rowReg _ hr2] at h
  simp only [Bind.bind, Except.bind] at h
  rw [labelSlice_ok S.rowReg _ hr2, labelSlice_ok S.colReg _ hc2, nbValid_ok S.rowReg _ hr2, nbValid_ok S.colReg _ hc2,
    S.window] at h
  set br := lost cv.offset cv.stepRow with hbr
  set bc := lost cv.offset cv.stepCol with hbc
  have hnr : (OpticalFlow.Arr1.sub cv.row (br, cv.row.n - 2 * br)).n = cv.row.n - 2 * br := rfl
  have hnc : (OpticalFlow.Arr1.sub cv.col (bc, cv.col.n - 2 * bc)).n = cv.col.n - 2 * bc := rfl
  have hleft := reshapeLeft_ok left cv.offset (OpticalFlow.Arr1.sub cv.row (br, cv.row.n - 2 * br))
    (OpticalFlow.Arr1.sub cv.col (bc, cv.col.n - 2 * bc)) S.offset
    (by
      intro k hk
      rw [hnr] at hk
      rw [sub_get]
      have hi := (innerIdx_iff S.rowReg cv.offset (br + k)).2 ⟨by omega, by omega, by omega⟩
      have i1 := S.rowIn 0 (by omega)
      have i2 := S.rowIn (cv.row.n - 1) (by omega)
      unfold InnerIdx at hi
      omega)
    (by
      intro k hk
      rw [hnc] at hk
      rw [sub_get]
      have hi := (innerIdx_iff S.colReg cv.offset (bc + k)).2 ⟨by omega, by omega, by omega⟩
      have i1 := S.colIn 0 (by omega)
      have i2 := S.colIn (cv.col.n - 1) (by omega)
      unfold InnerIdx at hi
      omega)
    (by rw [hnr]; omega) (by rw [hnc]; omega)
  rw [hleft] at h
  simp only [hnr, hnc, sub_get] at h
  generalize hLW : (List.range ((cv.row.n - 2 * br) * (cv.col.n - 2 * bc))).map (fun k =>
    windowOf left cv.offset (cv.row.get (br + k / (cv.col.n - 2 * bc))) (cv.col.get (bc + k % (cv.col.n - 2 * bc)))) = LW at h
  have hLWlen : LW.length = (cv.row.n - 2 * br) * (cv.col.n - 2 * bc) := by rw [← hLW]; simp
  rcases hR : reshapeRight invalid right (2 * cv.offset + 1) (OpticalFlow.Arr1.sub cv.row (br, cv.row.n - 2 * br))
    (OpticalFlow.Arr1.sub cv.col (bc, cv.col.n - 2 * bc))
    (fun k => rowMap.get (br + k / (cv.col.n - 2 * bc)) (bc + k % (cv.col.n - 2 * bc)))
    (fun k => colMap.get (br + k / (cv.col.n - 2 * bc)) (bc + k % (cv.col.n - 2 * bc))) with x | RW
  · rw [hR] at h; simp at h
  rw [hR] at h
  simp only at h
  unfold reshapeRight at hR
  obtain ⟨hRWlen, hRW⟩ := mapM_range _ _ _ hR
  rw [hnr, hnc] at hRWlen
  rw [hnr, hnc] at hRW
  rw [if_neg (by rw [hLWlen, hRWlen]; simp)] at h
  generalize hS : iterations e invalid junk (fun k => LW.getD k noWin) cfg.iterations
    ⟨fun k => rowMap.get (br + k / (cv.col.n - 2 * bc)) (bc + k % (cv.col.n - 2 * bc)),
     fun k => colMap.get (br + k / (cv.col.n - 2 * bc)) (bc + k % (cv.col.n - 2 * bc)),
     fun k => RW.getD k noWin, List.range LW.length⟩ = s at h
  rcases hpc : padded invalid rowMap.h rowMap.w ((cv.row.n - 2 * br) * (cv.col.n - 2 * bc)) (cv.row.n - 2 * br)
    (cv.col.n - 2 * bc) s.col with x | pc
  · rw [hpc] at h; simp at h
  rw [hpc] at h
  simp only at h
  rcases hpr : padded invalid rowMap.h rowMap.w ((cv.row.n - 2 * br) * (cv.col.n - 2 * bc)) (cv.row.n - 2 * br)
    (cv.col.n - 2 * bc) s.row with x | pr
  · rw [hpr] at h; simp at h
  rw [hpr] at h
  simp only at h
  rcases hoc : invalidOutOfGrid invalid cv.stepRow cv.stepCol colDisp.lo colDisp.hi pc with x | oc'
  · rw [hoc] at h; simp at h
  rw [hoc] at h
  simp only at h
  rcases hor : invalidOutOfGrid invalid cv.stepRow cv.stepCol rowDisp.lo rowDisp.hi pr with x | or'
  · rw [hor] at h; simp at h
  rw [hor] at h
  simp only [pure, Except.pure] at h
  obtain ⟨rfl, rfl⟩ := Prod.mk.inj (Except.ok.inj h)
  obtain ⟨p1, p2, p3⟩ := padded_ok hpc
  obtain ⟨q1, q2, q3⟩ := padded_ok hpr
  obtain ⟨u1, u2, u3, -⟩ := invalidOutOfGrid_ok hoc
  obtain ⟨v1, v2, v3, -⟩ := invalidOutOfGrid_ok hor
  refine ⟨⟨by omega, by omega, by omega, by omega⟩, ?_⟩
  intro r c hr hc
  rw [S.rowMap.1] at hr
  rw [S.rowMap.2] at hc
  have tr : (rowMap.h - (cv.row.n - 2 * br)) / 2 = br := by rw [S.rowMap.1]; omega
  have tc : (rowMap.w - (cv.col.n - 2 * bc)) / 2 = bc := by rw [S.rowMap.2]; omega
  rw [tr, tc] at p3 q3
  have cond : (br ≤ r ∧ r < br + (cv.row.n - 2 * br) ∧ bc ≤ c ∧ c < bc + (cv.col.n - 2 * bc)) ↔
      (InnerIdx cv.row cv.offset r ∧ InnerIdx cv.col cv.offset c) := by
    rw [innerIdx_iff S.rowReg, innerIdx_iff S.colReg]
    omega
  constructor
  · intro hin
    have hb := cond.2 hin
    set nc := cv.col.n - 2 * bc with hnc'
    set nr := cv.row.n - 2 * br with hnr'
    set k := (r - br) * nc + (c - bc) with hk
    have hnc0 : 0 < nc := by omega
    have hcb : c - bc < nc := by omega
    have kd : k / nc = r - br := by
      rw [hk, Nat.mul_comm, Nat.mul_add_div hnc0, Nat.div_eq_of_lt hcb, Nat.add_zero]
    have km : k % nc = c - bc := by
      rw [hk, Nat.mul_comm, Nat.mul_add_mod, Nat.mod_eq_of_lt hcb]
    have klt : k < nr * nc := by
      have : r - br + 1 ≤ nr := by omega
      calc k < (r - br) * nc + nc := Nat.add_lt_add_left hcb _
        _ = (r - br + 1) * nc := by ring
        _ ≤ nr * nc := Nat.mul_le_mul_right _ this
    have er : br + k / nc = r := by rw [kd]; omega
    have ec : bc + k % nc = c := by rw [km]; omega
    have hw := hRW k klt noWin
    simp only [sub_get, er, ec] at hw
    obtain ⟨sr, sc, s1, s2, s3⟩ := right_patch_spec hw
    refine ⟨sr, sc, s1, s2, ?_⟩
    have hlw : LW.getD k noWin = windowOf left cv.offset (cv.row.get r) (cv.col.get c) := by
      rw [← hLW, List.getD_eq_getElem?_getD]
      simp only [List.getElem?_map, List.getElem?_range klt, Option.map_some, Option.getD_some, er, ec]
    have it := (iterations_spec e invalid junk (fun k => LW.getD k noWin) cfg.iterations
      ⟨fun k => rowMap.get (br + k / nc) (bc + k % nc), fun k => colMap.get (br + k / nc) (bc + k % nc),
       fun k => RW.getD k noWin, List.range LW.length⟩ k).1 (by rw [List.mem_range, hLWlen]; exact klt)
    rw [hS] at it
    simp only [hlw, s3, er, ec] at it
    have i1 := congrArg Prod.fst it
    have i2 := congrArg Prod.snd it
    simp only at i1 i2
    refine ⟨?_, ?_⟩
    · rw [v3, q3, if_pos hb, i1]
    · rw [u3, p3, if_pos hb, i2]
  · intro hout
    have hb := fun hh => hout (cond.1 hh)
    refine ⟨?_, ?_⟩
    · rw [u3, p3, if_neg hb, insideOr_invalid]
    · rw [v3, q3, if_neg hb, insideOr_invalid]

/-- An initial disparity which can be truncated to an integer: not an infinity, unless it is the invalid value. -/
def Truncatable (invalid d : F K) : Prop := d = .nan ∨ (d = invalid ∧ d.isNaN = false) ∨ ∃ x, d = .fin x

theorem shiftOf_total {d : F K} (h : Truncatable invalid d) : ∃ s, shiftOf invalid d = .ok s := by
  unfold shiftOf
  rcases h with h | h | ⟨x, h⟩
  · subst h; exact ⟨0, rfl⟩
  · rw [if_pos (by rw [Bool.or_eq_true, F.eq_iff]; exact .inr h)]; exact ⟨0, rfl⟩
  · subst h
    split_ifs
    · exact ⟨0, rfl⟩
    · exact ⟨_, rfl⟩

/-- C50: the refinement returns maps as soon as one window fits in each direction and the grids have the shape of the maps. -/
theorem C50_total (S : FlowSetting cfg cv rowMap colMap left r0 c0)
    (hr : ∃ k, InnerIdx cv.row cv.offset k) (hc : ∃ k, InnerIdx cv.col cv.offset k)
    (hd : ∀ r < rowMap.h, ∀ c < rowMap.w, Truncatable invalid (rowMap.get r c) ∧ Truncatable invalid (colMap.get r c))
    (hg : ∀ g ∈ [rowDisp.lo, rowDisp.hi, colDisp.lo, colDisp.hi],
      (g.h + cv.stepRow - 1) / cv.stepRow = cv.row.n ∧ (g.w + cv.stepCol - 1) / cv.stepCol = cv.col.n) :
    ∃ out, refinementMethod e junk cfg cv invalid rowMap colMap left right rowDisp colDisp = .ok out := by
  have hr2 : 2 * lost cv.offset cv.stepRow < cv.row.n := by
    obtain ⟨k, hk⟩ := hr
    rw [innerIdx_iff S.rowReg] at hk; omega
  have hc2 : 2 * lost cv.offset cv.stepCol < cv.col.n := by
    obtain ⟨k, hk⟩ := hc
    rw [innerIdx_iff S.colReg] at hk; omega
  unfold refinementMethod
  rw [extrema_ok S.colReg _ hc2, extrema_ok S.rowReg _ hr2]
  simp only [Bind.bind, Except.bind]
  rw [labelSlice_ok S.rowReg _ hr2, labelSlice_ok S.colReg _ hc2, nbValid_ok S.rowReg _ hr2, nbValid_ok S.colReg _ hc2,
    S.window]
  set br := lost cv.offset cv.stepRow with hbr
  set bc := lost cv.offset cv.stepCol with hbc
  have hnr : (OpticalFlow.Arr1.sub cv.row (br, cv.row.n - 2 * br)).n = cv.row.n - 2 * br := rfl
  have hnc : (OpticalFlow.Arr1.sub cv.col (bc, cv.col.n - 2 * bc)).n = cv.col.n - 2 * bc := rfl
  have hleft := reshapeLeft_ok left cv.offset (OpticalFlow.Arr1.sub cv.row (br, cv.row.n - 2 * br))
    (OpticalFlow.Arr1.sub cv.col (bc, cv.col.n - 2 * bc)) S.offset
    (by
      intro k hk
      rw [hnr] at hk
      rw [sub_get]
      have hi := (innerIdx_iff S.rowReg cv.offset (br + k)).2 ⟨by omega, by omega, by omega⟩
      have i1 := S.rowIn 0 (by omega)
      have i2 := S.rowIn (cv.row.n - 1) (by omega)
      unfold InnerIdx at hi
      omega)
    (by
      intro k hk
      rw [hnc] at hk
      rw [sub_get]
      have hi := (innerIdx_iff S.colReg cv.offset (bc + k)).2 ⟨by omega, by omega, by omega⟩
      have i1 := S.colIn 0 (by omega)
      have i2 := S.colIn (cv.col.n - 1) (by omega)
      unfold InnerIdx at hi
      omega)
    (by rw [hnr]; omega) (by rw [hnc]; omega)
  rw [hleft]
  simp only [hnr, hnc]
  have hnc0 : 0 < cv.col.n - 2 * bc := by omega
  obtain ⟨RW, hR⟩ : ∃ RW, reshapeRight invalid right (2 * cv.offset + 1)
      (OpticalFlow.Arr1.sub cv.row (br, cv.row.n - 2 * br)) (OpticalFlow.Arr1.sub cv.col (bc, cv.col.n - 2 * bc))
      (fun k => rowMap.get (br + k / (cv.col.n - 2 * bc)) (bc + k % (cv.col.n - 2 * bc)))
      (fun k => colMap.get (br + k / (cv.col.n - 2 * bc)) (bc + k % (cv.col.n - 2 * bc))) = .ok RW := by
    unfold reshapeRight
    apply mapM_range_ok
    intro k hk
    rw [hnr, hnc] at hk
    have k1 : k / (cv.col.n - 2 * bc) < cv.row.n - 2 * br := (Nat.div_lt_iff_lt_mul hnc0).2 hk
    have k2 : k % (cv.col.n - 2 * bc) < cv.col.n - 2 * bc := Nat.mod_lt _ hnc0
    obtain ⟨d1, d2⟩ := hd (br + k / (cv.col.n - 2 * bc)) (by rw [S.rowMap.1]; omega) (bc + k % (cv.col.n - 2 * bc))
      (by rw [S.rowMap.2]; omega)
    obtain ⟨s1, h1⟩ := shiftOf_total d1
    obtain ⟨s2, h2⟩ := shiftOf_total d2
    unfold rightPatch
    rw [h2, h1]
    exact ⟨_, rfl⟩
  have hlen : RW.length = (cv.row.n - 2 * br) * (cv.col.n - 2 * bc) := by
    unfold reshapeRight at hR
    have := (mapM_range _ _ _ hR).1
    rwa [hnr, hnc] at this
  rw [hR]
  simp only
  rw [if_neg (by rw [hlen]; simp)]
  have gc1 := hg colDisp.lo (by simp)
  have gc2 := hg colDisp.hi (by simp)
  have gr1 := hg rowDisp.lo (by simp)
  have gr2 := hg rowDisp.hi (by simp)
  unfold padded invalidOutOfGrid
  have h1 : ¬ (cv.row.n < cv.row.n - 2 * br ∨ cv.col.n < cv.col.n - 2 * bc) := by omega
  simp only [ne_eq, not_true_eq_false, if_false, h1, S.rowMap.1, S.rowMap.2, gc1, gc2, gr1, gr2, and_self, if_true]
  exact ⟨_, rfl⟩

/-! ## C51: bounded displacement -/

/-- `x` differs from `y` by at most `n`, or is NaN. -/
def CloseTo (n : Nat) (y : K) (x : F K) : Prop := x = .nan ∨ ∃ k, x = .fin k ∧ |k - y| ≤ n

theorem close_step {n : Nat} {y y' : K} {x : F K} (h : CloseTo n y' x) (hy : |y' - y| ≤ 1) : CloseTo (n + 1) y x := by
  rcases h with h | ⟨k, h, hk⟩
  · exact .inl h
  · refine .inr ⟨k, h, ?_⟩
    push_cast
    calc |k - y| = |(k - y') + (y' - y)| := by ring_nf
      _ ≤ |k - y'| + |y' - y| := abs_add_le _ _
      _ ≤ n + 1 := by linarith

theorem trajectory_nan (flow : Win K → Win K → F K × F K) (warp : Win K → F K → F K → Win K) (left : Win K) (n : Nat)
    (w : Win K) (d : F K × F K) :
    (d.1 = .nan → (trajectory flow warp left n w d).1 = .nan) ∧
    (d.2 = .nan → (trajectory flow warp left n w d).2 = .nan) := by
  have hn : ∀ m : F K, fsub .nan m = .nan := fun m => by cases m <;> rfl
  induction n generalizing w d with
  | zero => exact ⟨fun h => h, fun h => h⟩
  | succ n ih =>
    unfold trajectory
    simp only
    split_ifs
    · obtain ⟨a, b⟩ := ih (warp w (flow left w).1 (flow left w).2) (fsub d.1 (flow left w).1, fsub d.2 (flow left w).2)
      exact ⟨fun h => a (by simp only [h, hn]), fun h => b (by simp only [h, hn])⟩
    · exact ⟨fun h => by simp only [h, hn], fun h => by simp only [h, hn]⟩

theorem small_motion {y : K} {m : F K} (h : F.lt (fabs m) (.fin 1) = true) :
    ∃ k, fsub (.fin y) m = .fin k ∧ |k - y| ≤ 1 := by
  cases m with
  | fin a =>
    refine ⟨y + -a, rfl, ?_⟩
    simp only [fabs, F.lt, decide_eq_true_eq] at h
    rw [show y + -a - y = -a by ring, abs_neg]
    exact h.le
  | _ => simp [fabs, F.lt] at h

theorem clipped_motion (y : K) (m : F K) : CloseTo 1 y (fsub (.fin y) (clip m)) := by
  unfold clip
  split_ifs with h
  · right; exact ⟨y, fsub_zero _, by simp⟩
  · cases m with
    | nan => left; rfl
    | fin a =>
      right
      refine ⟨y + -a, rfl, ?_⟩
      simp only [fabs, F.lt, decide_eq_true_eq] at h
      rw [show y + -a - y = -a by ring, abs_neg]
      push Not at h
      simpa using h
    | _ => simp [fabs, F.lt] at h

theorem CloseTo.mono {n : Nat} {y : K} {x : F K} (h : CloseTo 1 y x) : CloseTo (n + 1) y x := by
  rcases h with h | ⟨k, h, hk⟩
  · exact .inl h
  · refine .inr ⟨k, h, ?_⟩
    have : (0 : K) ≤ n := Nat.cast_nonneg n
    push_cast at hk ⊢
    linarith

/-- C51 for one pixel. -/
theorem C51_trajectory (flow : Win K → Win K → F K × F K) (warp : Win K → F K → F K → Win K) (left : Win K) (n : Nat)
    (w : Win K) (y1 y2 : K) :
    CloseTo n y1 (trajectory flow warp left n w (.fin y1, .fin y2)).1 ∧
    CloseTo n y2 (trajectory flow warp left n w (.fin y1, .fin y2)).2 := by
  induction n generalizing w y1 y2 with
  | zero => exact ⟨.inr ⟨y1, rfl, by simp⟩, .inr ⟨y2, rfl, by simp⟩⟩
  | succ n ih =>
    unfold trajectory
    simp only
    split_ifs with h
    · obtain ⟨k1, e1, a1⟩ := small_motion (y := y1) h.1
      obtain ⟨k2, e2, a2⟩ := small_motion (y := y2) h.2
      rw [e1, e2]
      obtain ⟨i1, i2⟩ := ih (warp w (flow left w).1 (flow left w).2) k1 k2
      exact ⟨close_step i1 a1, close_step i2 a2⟩
    · exact ⟨(clipped_motion y1 _).mono, (clipped_motion y2 _).mono⟩

theorem insideOr_cases (lo hi : Int) (x : F K) : insideOr invalid lo hi x = invalid ∨ insideOr invalid lo hi x = x := by
  unfold insideOr; split_ifs <;> simp

/-- C51: the refined disparity of a pixel is invalid, or NaN, or at most the number of iterations away from its initial
disparity. -/
theorem C51_bounded_partial (S : FlowSetting cfg cv rowMap colMap left r0 c0)
    (h : refinementMethod e junk cfg cv invalid rowMap colMap left right rowDisp colDisp = .ok (oc, orr))
    (r c : Nat) (hr : r < rowMap.h) (hc : c < rowMap.w) (yr yc : K)
    (er : rowMap.get r c = .fin yr) (ec : colMap.get r c = .fin yc) :
    (orr.get r c = invalid ∨ CloseTo cfg.iterations yr (orr.get r c)) ∧
    (oc.get r c = invalid ∨ CloseTo cfg.iterations yc (oc.get r c)) := by
  obtain ⟨-, hp⟩ := C50_aligned S h
  obtain ⟨h1, h2⟩ := hp r c hr hc
  by_cases hin : InnerIdx cv.row cv.offset r ∧ InnerIdx cv.col cv.offset c
  · obtain ⟨sr, sc, -, -, ht⟩ := h1 hin
    rw [er, ec] at ht
    simp only at ht
    obtain ⟨t1, t2⟩ := ht
    obtain ⟨b1, b2⟩ := C51_trajectory (lucasKanade e invalid) e.warp
      (windowOf left cv.offset (cv.row.get r) (cv.col.get c)) cfg.iterations
      (rightWindow right cv.offset (cv.row.get r + sr) (cv.col.get c + sc)) yr yc
    constructor
    · rw [t1]
      rcases insideOr_cases (invalid := invalid) (rowDisp.lo.get (r * cv.stepRow) (c * cv.stepCol))
        (rowDisp.hi.get (r * cv.stepRow) (c * cv.stepCol)) _ with hh | hh
      · exact .inl hh
      · right; rw [hh]; exact b1
    · rw [t2]
      rcases insideOr_cases (invalid := invalid) (colDisp.lo.get (r * cv.stepRow) (c * cv.stepCol))
        (colDisp.hi.get (r * cv.stepRow) (c * cv.stepCol)) _ with hh | hh
      · exact .inl hh
      · right; rw [hh]; exact b2
  · exact ⟨.inl (h2 hin).2, .inl (h2 hin).1⟩

/-- The least squares never give NaN. -/
def NoNaN (e : Ext K) : Prop := ∀ a b m, e.lstsq a b = some m → m.1 ≠ .nan ∧ m.2 ≠ .nan

theorem lk_not_nan (he : NoNaN e) (hi : invalid ≠ .nan) (l w : Win K) :
    (lucasKanade e invalid l w).1 ≠ .nan ∧ (lucasKanade e invalid l w).2 ≠ .nan := by
  unfold lucasKanade
  rcases hm : e.lstsq (gradMatrix l) (timeMatrix l w) with _ | m
  · exact ⟨hi, hi⟩
  · exact ⟨(he _ _ _ hm).2, (he _ _ _ hm).1⟩

theorem clip_fin (m : F K) (h : m ≠ .nan) : ∃ k, clip m = .fin k := by
  unfold clip
  cases m with
  | nan => exact absurd rfl h
  | fin a => split_ifs <;> exact ⟨_, rfl⟩
  | _ => exact ⟨0, by simp [fabs, F.lt]⟩

theorem trajectory_fin {flow : Win K → Win K → F K × F K} (hf : ∀ l w, (flow l w).1 ≠ .nan ∧ (flow l w).2 ≠ .nan)
    (warp : Win K → F K → F K → Win K) (left : Win K) (n : Nat) (w : Win K) (y1 y2 : K) :
    ∃ k1 k2, trajectory flow warp left n w (.fin y1, .fin y2) = (.fin k1, .fin k2) := by
  induction n generalizing w y1 y2 with
  | zero => exact ⟨y1, y2, rfl⟩
  | succ n ih =>
    unfold trajectory
    simp only
    split_ifs with h
    · obtain ⟨k1, e1, -⟩ := small_motion (y := y1) h.1
      obtain ⟨k2, e2, -⟩ := small_motion (y := y2) h.2
      rw [e1, e2]
      exact ih _ _ _
    · obtain ⟨a, ea⟩ := clip_fin _ (hf left w).1
      obtain ⟨b, eb⟩ := clip_fin _ (hf left w).2
      rw [ea, eb]
      exact ⟨_, _, rfl⟩

/-- C51 without NaN: when the least squares give no NaN and the invalid value is a number, the refined disparity is invalid or at
most the number of iterations away from the initial disparity. -/
theorem C51_bounded (he : NoNaN e) (hi : invalid ≠ .nan) (S : FlowSetting cfg cv rowMap colMap left r0 c0)
    (h : refinementMethod e junk cfg cv invalid rowMap colMap left right rowDisp colDisp = .ok (oc, orr))
    (r c : Nat) (hr : r < rowMap.h) (hc : c < rowMap.w) (yr yc : K)
    (er : rowMap.get r c = .fin yr) (ec : colMap.get r c = .fin yc) :
    (orr.get r c = invalid ∨ ∃ k, orr.get r c = .fin k ∧ |k - yr| ≤ cfg.iterations) ∧
    (oc.get r c = invalid ∨ ∃ k, oc.get r c = .fin k ∧ |k - yc| ≤ cfg.iterations) := by
  obtain ⟨b1, b2⟩ := C51_bounded_partial S h r c hr hc yr yc er ec
  obtain ⟨-, hp⟩ := C50_aligned S h
  obtain ⟨h1, h2⟩ := hp r c hr hc
  by_cases hin : InnerIdx cv.row cv.offset r ∧ InnerIdx cv.col cv.offset c
  · obtain ⟨sr, sc, -, -, ht⟩ := h1 hin
    obtain ⟨k1, k2, hk⟩ := trajectory_fin (fun l w => lk_not_nan he hi l w) e.warp
      (windowOf left cv.offset (cv.row.get r) (cv.col.get c)) cfg.iterations
      (rightWindow right cv.offset (cv.row.get r + sr) (cv.col.get c + sc)) yr yc
    rw [er, ec, hk] at ht
    simp only at ht
    obtain ⟨t1, t2⟩ := ht
    constructor
    · rcases b1 with b1 | b1 | b1
      · exact .inl b1
      · left
        rcases insideOr_cases (invalid := invalid) (rowDisp.lo.get (r * cv.stepRow) (c * cv.stepCol))
          (rowDisp.hi.get (r * cv.stepRow) (c * cv.stepCol)) (.fin k1) with hh | hh
        · rw [t1]; exact hh
        · rw [t1, hh] at b1; simp at b1
      · exact .inr b1
    · rcases b2 with b2 | b2 | b2
      · exact .inl b2
      · left
        rcases insideOr_cases (invalid := invalid) (colDisp.lo.get (r * cv.stepRow) (c * cv.stepCol))
          (colDisp.hi.get (r * cv.stepRow) (c * cv.stepCol)) (.fin k2) with hh | hh
        · rw [t2]; exact hh
        · rw [t2, hh] at b2; simp at b2
      · exact .inr b2
  · exact ⟨.inl (h2 hin).2, .inl (h2 hin).1⟩

/-! ## C52: inside the range or invalid -/

theorem insideOr_inside (lo hi : Int) (x : F K) (hx : x ≠ .nan) :
    insideOr invalid lo hi x = invalid ∨ StrictlyInside lo hi (insideOr invalid lo hi x) := by
  unfold insideOr
  split_ifs with h
  · exact .inl rfl
  · right
    cases x with
    | nan => exact absurd rfl hx
    | fin k =>
      refine ⟨k, rfl, ?_⟩
      simpa [F.le] using h
    | _ => simp [F.le] at h

/-- Index of a coordinate in the image, when the first coordinate is the first pixel. -/
theorem idx_of_coord {a : Arr1 Int} {start : Int} {step k : Nat} (h : RegularAxis a start step) (hk : k < a.n) :
    (a.get k - start).toNat = k * step := by
  rw [h.get k hk]
  have : start + (k : Int) * step - start = ((k * step : Nat) : Int) := by push_cast; ring
  rw [this]; rfl

/-- C52, one map at a time: when the first coordinate of the cost volumes is the first pixel of the image, each refined value is
invalid, or strictly inside the range of its own pixel, or NaN. -/
theorem C52_inside_partial (S : FlowSetting cfg cv rowMap colMap left left.row0 left.col0)
    (h : refinementMethod e junk cfg cv invalid rowMap colMap left right rowDisp colDisp = .ok (oc, orr))
    (r c : Nat) (hr : r < rowMap.h) (hc : c < rowMap.w) :
    let i := (cv.row.get r - left.row0).toNat
    let j := (cv.col.get c - left.col0).toNat
    (orr.get r c = .nan ∨ orr.get r c = invalid ∨
      StrictlyInside (rowDisp.lo.get i j) (rowDisp.hi.get i j) (orr.get r c)) ∧
    (oc.get r c = .nan ∨ oc.get r c = invalid ∨
      StrictlyInside (colDisp.lo.get i j) (colDisp.hi.get i j) (oc.get r c)) := by
  obtain ⟨-, hp⟩ := C50_aligned S h
  obtain ⟨h1, h2⟩ := hp r c hr hc
  intro i j
  have ei : i = r * cv.stepRow := idx_of_coord S.rowReg (by rw [← S.rowMap.1]; exact hr)
  have ej : j = c * cv.stepCol := idx_of_coord S.colReg (by rw [← S.rowMap.2]; exact hc)
  rw [ei, ej]
  by_cases hin : InnerIdx cv.row cv.offset r ∧ InnerIdx cv.col cv.offset c
  · obtain ⟨sr, sc, -, -, t1, t2⟩ := h1 hin
    constructor
    · rw [t1]
      by_cases hn : (trajectory (lucasKanade e invalid) e.warp (windowOf left cv.offset (cv.row.get r) (cv.col.get c))
        cfg.iterations (rightWindow right cv.offset (cv.row.get r + sr) (cv.col.get c + sc))
        (rowMap.get r c, colMap.get r c)).1 = .nan
      · left; rw [hn]; simp [insideOr, F.le]
      · exact .inr (insideOr_inside _ _ _ hn)
    · rw [t2]
      by_cases hn : (trajectory (lucasKanade e invalid) e.warp (windowOf left cv.offset (cv.row.get r) (cv.col.get c))
        cfg.iterations (rightWindow right cv.offset (cv.row.get r + sr) (cv.col.get c + sc))
        (rowMap.get r c, colMap.get r c)).2 = .nan
      · left; rw [hn]; simp [insideOr, F.le]
      · exact .inr (insideOr_inside _ _ _ hn)
  · exact ⟨.inr (.inl (h2 hin).2), .inr (.inl (h2 hin).1)⟩

end Verif.Props
