import Verif.Spec.Datasets
import Verif.Props.Config
import Verif.Props.OwnRange

/-!
# Properties C73 to C75: accepted configurations and datasets
-/

namespace Verif.Props

open Verif Verif.Config Verif.ImgTools Verif.MatchingCost Verif.Datasets Verif.Spec

set_option linter.unusedSectionVars false

/-! ## What the check of the input section guarantees -/

theorem input_ok (env : Config.Env) (user cfg : Fields) (est : Bool) (h : checkInputSection env user est = .ok cfg) :
    ∃ inp, cfg.get "input" = some (.obj inp) ∧ inputSchema env (.obj inp) = true ∧
      (est = false → ∃ size, env.imageSize (.obj inp) = .ok size ∧ checkDisparity env size inp = .ok ()) := by
  unfold checkInputSection at h
  split at h
  · simp at h
  · split at h
    · simp at h
    · split at h
      · simp at h
      · rename_i c hc
        split at h
        · simp at h
        · rename_i hval
          simp only [Except.ok.injEq] at h
          subst h
          unfold validateInput at hval
          have hs : dictOf [("input", inputSchema env)] (.obj c) = true := by
            by_contra hn
            simp [hn] at hval
          rw [if_pos hs] at hval
          rw [dictOf_iff] at hs
          obtain ⟨v, hv, hsv⟩ := hs.2 ("input", inputSchema env) (by simp)
          simp only at hv hsv
          obtain ⟨inp, rfl⟩ := dictOf_obj hsv
          refine ⟨inp, hv, hsv, ?_⟩
          rintro rfl
          rw [hv] at hval
          simp only [Bool.false_eq_true, if_false] at hval
          split at hval
          · simp at hval
          · split at hval
            · simp at hval
            · rename_i size hsz
              exact ⟨size, hsz, hval⟩

theorem schema_disp (env : Config.Env) (inp : Fields) (h : inputSchema env (.obj inp) = true) (key : String)
    (hk : key = "col_disparity" ∨ key = "row_disparity") :
    ∃ f i r n, inp.get key = some (.obj f) ∧ (∀ k ∈ f.keys, k = "init" ∨ k = "range") ∧ f.get "init" = some i ∧
      f.get "range" = some r ∧ IsInt env.boolIsInt r n ∧ 0 ≤ n := by
  unfold inputSchema at h
  rw [dictOf_iff] at h
  have : ∃ v, inp.get key = some v ∧ dictOf [("init", fun v => (intVal env.boolIsInt v).isSome || env.canOpen v),
      ("range", intAnd env.boolIsInt fun x => decide (0 ≤ x))] v = true := by
    rcases hk with rfl | rfl
    · exact h.2 (_, _) (.tail _ (.tail _ (.head _)))
    · exact h.2 (_, _) (.tail _ (.tail _ (.tail _ (.head _))))
  obtain ⟨v, hv, hs⟩ := this
  obtain ⟨f, rfl⟩ := dictOf_obj hs
  rw [dictOf_iff] at hs
  obtain ⟨i, hi, -⟩ := hs.2 (_, _) (List.mem_cons_self)
  obtain ⟨r, hr, hr2⟩ := hs.2 ("range", intAnd env.boolIsInt fun x => decide (0 ≤ x)) (by simp)
  rw [intAnd_iff] at hr2
  obtain ⟨n, hn, hp⟩ := hr2
  refine ⟨f, i, r, n, hv, ?_, hi, hr, hn, by simpa using hp⟩
  intro k hk
  have := hs.1 k hk
  simpa using this

theorem isInt_true {bi : Bool} {v : J} {i : Int} (h : IsInt bi v i) : IsInt true v i := by
  rcases h with h | ⟨-, h⟩
  · exact Or.inl h
  · exact Or.inr ⟨rfl, h⟩

theorem schema_image (env : Config.Env) (inp : Fields) (h : inputSchema env (.obj inp) = true) (key : String)
    (hk : key = "left" ∨ key = "right") : ∃ v, inp.get key = some v := by
  unfold inputSchema at h
  rw [dictOf_iff] at h
  rcases hk with rfl | rfl
  · obtain ⟨v, hv, -⟩ := h.2 (_, _) (List.mem_cons_self)
    exact ⟨v, hv⟩
  · obtain ⟨v, hv, -⟩ := h.2 (_, _) (List.mem_cons_of_mem _ List.mem_cons_self)
    exact ⟨v, hv⟩

/-! ## C74 -/

theorem checkTypes_ok {f : Fields} {i r : J} {n : Int} (hk : ∀ k ∈ f.keys, k = "init" ∨ k = "range") (hi : f.get "init" = some i)
    (hr : f.get "range" = some r) (hn : IsInt true r n) (h0 : 0 ≤ n) (hin : isIntPy i = true ∨ isStr i = true) :
    checkTypes (.obj f) = .ok () := by
  show (if (f.keys.all fun k => decide (k = "init" ∨ k = "range")) = true then _ else _) = _
  rw [if_pos (by rw [List.all_eq_true]; intro k h; simpa using hk k h), hi, hr]
  show (if (isIntPy i || isStr i) = true then checkRange r else _) = _
  rw [if_pos (by simpa using hin)]
  rcases hn with rfl | ⟨-, ⟨rfl, -⟩ | ⟨rfl, -⟩⟩
  · simp only [checkRange]
    rw [if_neg (by omega)]
  · rfl
  · rfl

/-- C74: every input section accepted by the check (without estimation) is accepted by the checks made again on the disparities when the
datasets are created. -/
theorem C74_accepted_disparities (env : Config.Env) (user cfg : Fields) (h : checkInputSection env user false = .ok cfg) :
    ∃ inp, cfg.get "input" = some (.obj inp) ∧ checkDisparities inp = .ok () := by
  obtain ⟨inp, h1, h2, h3⟩ := input_ok env user cfg false h
  obtain ⟨size, -, h4⟩ := h3 rfl
  obtain ⟨row, col, ri, ci, a1, a2, a3, a4, hk⟩ := checkDisparity_ok env size inp h4
  obtain ⟨f, i, r, n, b1, b2, b3, b4, b5, b6⟩ := schema_disp env inp h2 "col_disparity" (Or.inl rfl)
  obtain ⟨f', i', r', n', c1, c2, c3, c4, c5, c6⟩ := schema_disp env inp h2 "row_disparity" (Or.inr rfl)
  rw [a2, Option.some.injEq, J.obj.injEq] at b1
  rw [a1, Option.some.injEq, J.obj.injEq] at c1
  subst b1 c1
  rw [a4, Option.some.injEq] at b3
  rw [a3, Option.some.injEq] at c3
  subst b3 c3
  refine ⟨inp, h1, ?_⟩
  have key : (isIntPy ri = true ∨ isStr ri = true) ∧ (isIntPy ci = true ∨ isStr ci = true) := by
    rcases hk with ⟨s, t, rfl, rfl⟩ | ⟨x, y, hx, hy⟩
    · exact ⟨Or.inr rfl, Or.inr rfl⟩
    · exact ⟨Or.inl ((isIntPy_iff _).2 ⟨_, hx⟩), Or.inl ((isIntPy_iff _).2 ⟨_, hy⟩)⟩
  unfold checkDisparities checkPresence
  simp only [a1, a2, item, bind, Except.bind]
  rw [checkTypes_ok b2 a4 b4 (isInt_true b5) b6 key.2, checkTypes_ok c2 a3 c4 (isInt_true c5) c6 key.1]

/-! ## C75 -/

section
variable {K : Type} [Field K] [LinearOrder K] [IsStrictOrderedRing K] [FloorRing K]

theorem dispOf_ok {files : Files K} {v : J} {d : Disp} (h : dispOf files v = .ok d) :
    ∃ f i r, v = .obj f ∧ f.get "init" = some i ∧ f.get "range" = some r ∧ IsInt true r d.range ∧
      ((∃ n, IsInt true i n ∧ d.init = .const n) ∨ (∃ s, i = .str s ∧ d.init = .grid (files.grid s))) := by
  cases v with
  | obj f =>
    unfold dispOf at h
    obtain ⟨i, hi, h⟩ := bind_eq_ok h
    have hi := item_ok hi
    have rng : ∀ {n}, rangeOf f = .ok n → ∃ r, f.get "range" = some r ∧ IsInt true r n := by
      intro n hn
      unfold rangeOf at hn
      obtain ⟨r, hr, hn⟩ := bind_eq_ok hn
      refine ⟨r, item_ok hr, ?_⟩
      cases hv : intVal true r with
      | none => rw [hv] at hn; simp at hn
      | some m =>
        rw [hv] at hn
        simp only [Except.ok.injEq] at hn
        subst hn
        exact (intVal_iff true r _).1 hv
    split_ifs at h with hb
    · obtain ⟨n, hn, h⟩ := bind_eq_ok h
      simp only [pure, Except.pure, Except.ok.injEq] at h
      subst h
      obtain ⟨r, hr, hr'⟩ := rng hn
      obtain ⟨x, hx⟩ := (isIntPy_iff i).1 hb
      exact ⟨f, i, r, rfl, hi, hr, hr', Or.inl ⟨x, hx, by rw [pyInt_of hx]⟩⟩
    · cases i with
      | str s =>
        obtain ⟨n, hn, h⟩ := bind_eq_ok h
        simp only [pure, Except.pure, Except.ok.injEq] at h
        subst h
        obtain ⟨r, hr, hr'⟩ := rng hn
        exact ⟨f, _, r, rfl, hi, hr, hr', Or.inr ⟨s, rfl, rfl⟩⟩
      | _ => simp at h
  | _ => simp [dispOf] at h

theorem dispOf_of {files : Files K} {f : Fields} {i r : J} {n : Int} (hi : f.get "init" = some i) (hr : f.get "range" = some r)
    (hn : IsInt true r n) :
    (∀ m, IsInt true i m → dispOf files (.obj f) = .ok ⟨.const m, n⟩) ∧
    (∀ s, i = .str s → dispOf files (.obj f) = .ok ⟨.grid (files.grid s), n⟩) := by
  have hrange : rangeOf f = .ok n := by
    unfold rangeOf
    simp only [item, hr, bind, Except.bind, (intVal_iff true r n).2 hn]
  constructor
  · intro m hm
    unfold dispOf
    simp only [item, hi, bind, Except.bind, hrange, pure, Except.pure, (isIntPy_iff i).2 ⟨m, hm⟩, if_true, pyInt_of hm]
  · rintro s rfl
    unfold dispOf
    simp only [item, hi, bind, Except.bind, hrange, pure, Except.pure, isIntPy, Bool.false_eq_true, if_false]

theorem created {files : Files K} {inp inp' : Fields} {roi : Option Roi} {L R : Left K}
    (h : createDatasets files inp roi false = .ok (inp', L, R)) :
    ∃ l r c w dc dr, inp' = inp ∧ inp.get "left" = some l ∧ inp.get "right" = some r ∧ files.read l roi = .ok L.img ∧
      files.read r roi = .ok R.img ∧ inp.get "col_disparity" = some c ∧ inp.get "row_disparity" = some w ∧
      dispOf files c = .ok dc ∧ dispOf files w = .ok dr ∧
      getMinMax L.img.row0 L.img.col0 L.img.h L.img.w dc false = .ok L.colDisp ∧
      getMinMax L.img.row0 L.img.col0 L.img.h L.img.w dr false = .ok L.rowDisp ∧
      getMinMax R.img.row0 R.img.col0 R.img.h R.img.w dc true = .ok R.colDisp ∧
      getMinMax R.img.row0 R.img.col0 R.img.h R.img.w dr true = .ok R.rowDisp := by
  have add : ∀ {img : Img K} {c w : J} {b : Bool} {X : Left K}, addDisparityGrid files img c w b = .ok X →
      ∃ dc dr, dispOf files c = .ok dc ∧ dispOf files w = .ok dr ∧ X.img = img ∧
        getMinMax img.row0 img.col0 img.h img.w dc b = .ok X.colDisp ∧ getMinMax img.row0 img.col0 img.h img.w dr b = .ok X.rowDisp := by
    intro img c w b X hX
    unfold addDisparityGrid at hX
    obtain ⟨dc, h1, hX⟩ := bind_eq_ok hX
    obtain ⟨gc, h2, hX⟩ := bind_eq_ok hX
    obtain ⟨dr, h3, hX⟩ := bind_eq_ok hX
    obtain ⟨gr, h4, hX⟩ := bind_eq_ok hX
    simp only [pure, Except.pure, Except.ok.injEq] at hX
    subst hX
    exact ⟨dc, dr, h1, h3, rfl, h2, h4⟩
  unfold createDatasets at h
  simp only [Bool.false_eq_true, if_false] at h
  obtain ⟨u, -, h⟩ := bind_eq_ok h
  obtain ⟨i, hi, h⟩ := bind_eq_ok h
  simp only [pure, Except.pure, Except.ok.injEq] at hi
  subst hi
  obtain ⟨l, h1, h⟩ := bind_eq_ok h
  obtain ⟨li, h2, h⟩ := bind_eq_ok h
  obtain ⟨c, h3, h⟩ := bind_eq_ok h
  obtain ⟨w, h4, h⟩ := bind_eq_ok h
  obtain ⟨X, h5, h⟩ := bind_eq_ok h
  obtain ⟨r, h6, h⟩ := bind_eq_ok h
  obtain ⟨ri, h7, h⟩ := bind_eq_ok h
  obtain ⟨Y, h8, h⟩ := bind_eq_ok h
  simp only [pure, Except.pure, Except.ok.injEq, Prod.mk.injEq] at h
  obtain ⟨rfl, rfl, rfl⟩ := h
  obtain ⟨dc, dr, a1, a2, rfl, a4, a5⟩ := add h5
  obtain ⟨dc', dr', b1, b2, rfl, b4, b5⟩ := add h8
  rw [a1, Except.ok.injEq] at b1
  rw [a2, Except.ok.injEq] at b2
  subst b1 b2
  exact ⟨l, r, c, w, dc, dr, rfl, item_ok h1, item_ok h6, h2, h7, item_ok h3, item_ok h4, a1, a2, a4, a5, b4, b5⟩

/-- C75: for every accepted input section, the datasets which are created and pass `check_datasets` are a pair of images of one size
whose ranges are those of the configured disparities: exactly the hypotheses of the properties of the matching cost (C09, C13, C16). -/
theorem C75_pair_ok (env : Config.Env) (files : Files K) (user cfg inp inp' : Fields) (roi : Option Roi) (check : Left K → Option Err)
    (L R : Left K) (h : checkInputSection env user false = .ok cfg) (hin : cfg.get "input" = some (.obj inp))
    (hc : createDatasets files inp roi false = .ok (inp', L, R)) (hd : checkDatasets check L R = .ok ())
    (hdisk : SameDisk env files inp roi L.img R.img) :
    inp' = inp ∧ PairOk L R.img ∧ Uniform L.rowDisp L.img.h L.img.w ∧ Uniform L.colDisp L.img.h L.img.w ∧
    ∃ dRow dCol, IsDisp files inp "row_disparity" dRow ∧ IsDisp files inp "col_disparity" dCol ∧ 0 ≤ dRow.range ∧ 0 ≤ dCol.range ∧
      getMinMax L.img.row0 L.img.col0 L.img.h L.img.w dRow false = .ok L.rowDisp ∧
      getMinMax L.img.row0 L.img.col0 L.img.h L.img.w dCol false = .ok L.colDisp := by
  obtain ⟨inp2, h1, h2, -⟩ := input_ok env user cfg false h
  rw [hin, Option.some.injEq, J.obj.injEq] at h1
  subst h1
  obtain ⟨l, r, c, w, dc, dr, e0, e1, e2, e3, e4, e5, e6, e7, e8, e9, e10, e11, e12⟩ := created hc
  obtain ⟨f, i, rv, rfl, a2, a3, a4, a5⟩ := dispOf_ok e7
  obtain ⟨f', i', rv', rfl, b2, b3, b4, b5⟩ := dispOf_ok e8
  obtain ⟨g, i2, r2, n, c1, -, -, c4, c5, c6⟩ := schema_disp env inp h2 "col_disparity" (Or.inl rfl)
  obtain ⟨g', i3, r3, n', d1, -, -, d4, d5, d6⟩ := schema_disp env inp h2 "row_disparity" (Or.inr rfl)
  rw [e5, Option.some.injEq, J.obj.injEq] at c1
  rw [e6, Option.some.injEq, J.obj.injEq] at d1
  subst c1 d1
  rw [a3, Option.some.injEq] at c4
  rw [b3, Option.some.injEq] at d4
  subst c4 d4
  have hcr : 0 ≤ dc.range := by
    have := pyInt_of (isInt_true c5); rw [pyInt_of a4] at this; omega
  have hrr : 0 ≤ dr.range := by
    have := pyInt_of (isInt_true d5); rw [pyInt_of b4] at this; omega
  have hshape : L.img.h = R.img.h ∧ L.img.w = R.img.w := by
    unfold checkDatasets at hd
    split at hd
    · simp at hd
    · split at hd
      · simp at hd
      · split_ifs at hd with hs
        simpa using hs
  refine ⟨e0, ⟨hdisk.hpos, hdisk.wpos, hshape.1.symm, hshape.2.symm, ranges_wf _ _ _ _ _ _ _ hdisk.hpos hdisk.wpos hcr e9,
    ranges_wf _ _ _ _ _ _ _ hdisk.hpos hdisk.wpos hrr e10⟩, uniform_of_config _ _ _ _ _ _ e10, uniform_of_config _ _ _ _ _ _ e9,
    dr, dc, ⟨f', i', rv', e6, b2, b3, b4, b5⟩, ⟨f, i, rv, e5, a2, a3, a4, a5⟩, hrr, hcr, e10, e9⟩

/-- What the check of the grids guarantees. -/
theorem checkDisparity_grids (env : Config.Env) (size : Nat × Nat) (inp row col : Fields) (s t : String)
    (h : checkDisparity env size inp = .ok ()) (hr : inp.get "row_disparity" = some (.obj row))
    (hc : inp.get "col_disparity" = some (.obj col)) (hri : row.get "init" = some (.str s)) (hci : col.get "init" = some (.str t)) :
    ∃ a b, env.openGrid s = .ok a ∧ env.openGrid t = .ok b ∧ (a.height, a.width) = size ∧ (b.height, b.width) = size := by
  unfold checkDisparity at h
  obtain ⟨v, hv, h⟩ := bind_eq_ok h
  have e := item_ok hv
  rw [hr, Option.some.injEq] at e
  subst e
  obtain ⟨v, hv, h⟩ := bind_eq_ok h
  have e := item_ok hv
  rw [hc, Option.some.injEq] at e
  subst e
  obtain ⟨v, hv, h⟩ := bind_eq_ok h
  have e := item_ok hv
  rw [hri, Option.some.injEq] at e
  subst e
  obtain ⟨v, hv, h⟩ := bind_eq_ok h
  have e := item_ok hv
  rw [hci, Option.some.injEq] at e
  subst e
  obtain ⟨a, h1, h⟩ := bind_eq_ok h
  obtain ⟨b, h2, h⟩ := bind_eq_ok h
  obtain ⟨_, h3, h⟩ := bind_eq_ok h
  obtain ⟨_, h4, h⟩ := bind_eq_ok h
  have g : ∀ {x : GridFile} {u}, checkDisparityGrids size x = .ok u → (x.height, x.width) = size := by
    intro x u hx
    unfold checkDisparityGrids at hx
    split_ifs at hx with q1 q2
    simpa using q2
  exact ⟨a, b, h1, h2, g h3, g h4⟩

/-- C75: for every accepted input section and images which can be read, of at least two rows and two columns, the datasets are created.
Missing: images of one row or one column (`C75_one_row_false`). -/
theorem C75_created_partial (env : Config.Env) (files : Files K) (user cfg inp : Fields) (roi : Option Roi) (li ri : Img K)
    (h : checkInputSection env user false = .ok cfg) (hin : cfg.get "input" = some (.obj inp))
    (hdisk : SameDisk env files inp roi li ri) (hz : SameZone li ri) (h2 : 2 ≤ li.h) (w2 : 2 ≤ li.w) :
    ∃ L R, createDatasets files inp roi false = .ok (inp, L, R) ∧ L.img = li ∧ R.img = ri := by
  obtain ⟨inp2, q1, q2, q3⟩ := input_ok env user cfg false h
  rw [hin, Option.some.injEq, J.obj.injEq] at q1
  subst q1
  obtain ⟨size, q4, q5⟩ := q3 rfl
  obtain ⟨inp3, q6, q7⟩ := C74_accepted_disparities env user cfg h
  rw [hin, Option.some.injEq, J.obj.injEq] at q6
  subst q6
  obtain ⟨row, col, rI, cI, a1, a2, a3, a4, hk⟩ := checkDisparity_ok env size inp q5
  obtain ⟨f, i, r, n, b1, b2, b3, b4, b5, b6⟩ := schema_disp env inp q2 "col_disparity" (Or.inl rfl)
  obtain ⟨f', i', r', n', c1, c2, c3, c4, c5, c6⟩ := schema_disp env inp q2 "row_disparity" (Or.inr rfl)
  rw [a2, Option.some.injEq, J.obj.injEq] at b1
  rw [a1, Option.some.injEq, J.obj.injEq] at c1
  subst b1 c1
  obtain ⟨lv, hl⟩ := schema_image env inp q2 "left" (Or.inl rfl)
  obtain ⟨rv, hr⟩ := schema_image env inp q2 "right" (Or.inr rfl)
  obtain ⟨z1, z2, z3, z4⟩ := hdisk.zone size.1 size.2 q4
  have disp : ∃ dr dc, dispOf files (.obj row) = .ok dr ∧ dispOf files (.obj col) = .ok dc ∧
      Covers dr li.row0 li.col0 li.h li.w ∧ Covers dc li.row0 li.col0 li.h li.w := by
    obtain ⟨p1, p2⟩ := dispOf_of (files := files) a3 c4 (isInt_true c5)
    obtain ⟨p3, p4⟩ := dispOf_of (files := files) a4 b4 (isInt_true b5)
    rcases hk with ⟨s, t, rfl, rfl⟩ | ⟨x, y, hx, hy⟩
    · refine ⟨_, _, p2 s rfl, p4 t rfl, ?_, ?_⟩
      all_goals
        obtain ⟨ga, gb, g1, g2, g3, g4⟩ := checkDisparity_grids env size inp row col s t q5 a1 a2 a3 a4
        obtain ⟨u1, u2⟩ := hdisk.grids _ _ g1
        obtain ⟨u3, u4⟩ := hdisk.grids _ _ g2
        have e1 := congrArg Prod.fst g3
        have e2 := congrArg Prod.snd g3
        have e3 := congrArg Prod.fst g4
        have e4 := congrArg Prod.snd g4
        simp only at e1 e2 e3 e4
        simp only [Covers]
        refine ⟨z1, ?_, z3, ?_, h2, w2⟩ <;> omega
    · exact ⟨_, _, p1 x hx, p3 y hy, trivial, trivial⟩
  obtain ⟨dr, dc, d1, d2, d3, d4⟩ := disp
  obtain ⟨m1, e1⟩ := ranges_exist li.row0 li.col0 li.h li.w dc false d4
  obtain ⟨m2, e2⟩ := ranges_exist li.row0 li.col0 li.h li.w dr false d3
  obtain ⟨y1, y2, y3, y4⟩ := hz
  rw [y1, y2, y3, y4] at d3 d4
  obtain ⟨m3, e3⟩ := ranges_exist ri.row0 ri.col0 ri.h ri.w dc true d4
  obtain ⟨m4, e4⟩ := ranges_exist ri.row0 ri.col0 ri.h ri.w dr true d3
  refine ⟨⟨li, m1, m2⟩, ⟨ri, m3, m4⟩, ?_, rfl, rfl⟩
  unfold createDatasets
  simp only [Bool.false_eq_true, if_false, q7, bind, Except.bind, pure, Except.pure, item, hl, hr, a1, a2, hdisk.left lv hl,
    hdisk.right rv hr, addDisparityGrid, d1, d2, e1, e2, e3, e4]

end

/-! ## Examples for C74 and C75 -/

/-- A disk: images of `h` rows and `w` columns, grids of the same size. -/
def diskEnv (h w : Nat) : Config.Env where
  boolIsInt := false
  canOpen v := isStr v || decide (v = .null)
  canOpenMandatory v := isStr v
  openGrid _ := .ok ⟨1, h, w, some 2⟩
  checkImages _ := none
  imageSize _ := .ok (h, w)

def diskImg (h w : Nat) : Img ℚ := ⟨h, w, 0, 0, fun r c => .fin (10 * r + c), none, .fin (-1), 0, 1⟩

def diskFiles (h w : Nat) : Files ℚ where
  read _ _ := .ok (diskImg h w)
  grid _ := ⟨h, w, fun r c => (r : Int) - c⟩

theorem disk_same (h w : Nat) (inp : Fields) (hh : 0 < h) (hw : 0 < w) :
    SameDisk (diskEnv h w) (diskFiles h w) inp none (diskImg h w) (diskImg h w) := by
  refine ⟨?_, fun _ _ => rfl, fun _ _ => rfl, hh, hw, ?_⟩
  · intro s g hg
    simp only [diskEnv, Except.ok.injEq] at hg
    subst hg
    exact ⟨rfl, rfl⟩
  · intro H W hs
    simp only [diskEnv, Except.ok.injEq, Prod.mk.injEq] at hs
    obtain ⟨rfl, rfl⟩ := hs
    simp [diskImg]

def gridInput : Fields := testInput (testDisp (.str "a")) (testDisp (.str "b"))

/-- The accepted section of `gridInput`. -/
def gridSection : Fields :=
  mk [("left", .obj (mk [("nodata", .int (-9999)), ("mask", .null), ("img", .str "left.tif")])),
    ("right", .obj (mk [("nodata", .float .nan), ("mask", .null), ("img", .str "right.tif")])),
    ("row_disparity", testDisp (.str "a")), ("col_disparity", testDisp (.str "b"))]

theorem grid_accepted (h w : Nat) (hs : (h, w) = (1, 7) ∨ (h, w) = (4, 7)) :
    checkInputSection (diskEnv h w) gridInput false = .ok (mk [("input", .obj gridSection)]) := by
  rcases hs with hs | hs <;> obtain ⟨rfl, rfl⟩ := Prod.mk.inj hs <;> decide +kernel

/-- Example for C74: this section with grids is accepted by both checks. -/
example : checkDisparities gridSection = .ok () := by decide
/-- Wrong disparities are rejected. -/
example : checkDisparities (mk [("row_disparity", testDisp (.int 1))]) = .error .keyError := by decide
example : checkDisparities (mk [("row_disparity", testDisp (.int 1)), ("col_disparity", testDisp (.float (.fin 1)))]) =
    .error .valueError := by decide +kernel

/-- Example for C75: the datasets of this section are created from images of 4 x 7 pixels. -/
example : ∃ L R, createDatasets (diskFiles 4 7) gridSection none false = .ok (gridSection, L, R) ∧ L.img = diskImg 4 7 ∧
    R.img = diskImg 4 7 :=
  C75_created_partial (diskEnv 4 7) (diskFiles 4 7) gridInput _ gridSection none _ _ (grid_accepted 4 7 (Or.inr rfl)) rfl
    (disk_same 4 7 _ (by decide) (by decide)) ⟨rfl, rfl, rfl, rfl⟩ (by decide) (by decide)

/-- And they meet the hypotheses of the matching cost. -/
example : ∃ L R, createDatasets (diskFiles 4 7) gridSection none false = .ok (gridSection, L, R) ∧ PairOk L R.img := by
  obtain ⟨L, R, h, hl, hr⟩ := C75_created_partial (diskEnv 4 7) (diskFiles 4 7) gridInput _ gridSection none _ _
    (grid_accepted 4 7 (Or.inr rfl)) rfl (disk_same 4 7 _ (by decide) (by decide)) ⟨rfl, rfl, rfl, rfl⟩ (by decide) (by decide)
  refine ⟨L, R, h, (C75_pair_ok (diskEnv 4 7) (diskFiles 4 7) gridInput _ gridSection gridSection none (fun _ => none) L R
    (grid_accepted 4 7 (Or.inr rfl)) rfl h ?_ ?_).2.1⟩
  · simp [checkDatasets, hl, hr]
  · rw [hl, hr]
    exact disk_same 4 7 _ (by decide) (by decide)

/-- C75, in full: the datasets of every accepted section are created. -/
def C75CreatedStatement : Prop :=
  ∀ (env : Config.Env) (files : Files ℚ) (user cfg inp : Fields) (roi : Option Roi) (li ri : Img ℚ),
    checkInputSection env user false = .ok cfg → cfg.get "input" = some (.obj inp) → SameDisk env files inp roi li ri →
    SameZone li ri → ∃ L R, createDatasets files inp roi false = .ok (inp, L, R)

/-- It is false of the code: an image of one row with disparity grids is accepted, then the creation of its dataset raises ValueError
(`np.squeeze` removes the row axis of the grid). -/
theorem C75_one_row_false : ¬ C75CreatedStatement := by
  intro h
  obtain ⟨L, R, h⟩ := h (diskEnv 1 7) (diskFiles 1 7) gridInput _ gridSection none _ _ (grid_accepted 1 7 (Or.inl rfl)) rfl
    (disk_same 1 7 _ (by decide) (by decide)) ⟨rfl, rfl, rfl, rfl⟩
  have e : (createDatasets (diskFiles 1 7) gridSection none false).toOption.isSome = false := by decide +kernel
  rw [h] at e
  simp [Except.toOption] at e

/-! ## C73 -/

theorem stepSchema_iff (v : J) : stepSchema v = true ↔
    ∃ sr sc, v = .arr (.cons sr (.cons sc .nil)) ∧ AtLeastOne sr ∧ AtLeastOne sc := by
  have one : ∀ v : J, (match v with
      | .int i => decide (1 ≤ i)
      | .bool b => b
      | .float (.fin q) => decide (1 ≤ q)
      | .float .pinf => true
      | _ => false) = true ↔ AtLeastOne v := by
    intro v
    unfold AtLeastOne IsInt
    cases v with
    | int i => simp
    | bool b => cases b <;> simp
    | float x => cases x <;> simp
    | _ => simp
  cases v with
  | arr l =>
    unfold stepSchema
    rw [Bool.and_eq_true, List.all_eq_true]
    constructor
    · rintro ⟨h1, h2⟩
      cases l with
      | nil => simp [Js.toList] at h1
      | cons a l =>
        cases l with
        | nil => simp [Js.toList] at h1
        | cons b l =>
          cases l with
          | nil => exact ⟨a, b, rfl, (one a).1 (h2 a (by simp [Js.toList])), (one b).1 (h2 b (by simp [Js.toList]))⟩
          | cons c l => simp [Js.toList] at h1
    · rintro ⟨a, b, h, ha, hb⟩
      rw [J.arr.injEq] at h
      subst h
      refine ⟨by simp [Js.toList], ?_⟩
      intro x hx
      simp only [Js.toList, List.mem_cons, List.not_mem_nil, or_false] at hx
      rcases hx with rfl | rfl
      · exact (one _).2 ha
      · exact (one _).2 hb
  | _ => simp [stepSchema]

/-- C73, in full: the steps of an accepted matching cost are positive integers. -/
def C73Statement : Prop :=
  ∀ (M : Type) (pandora : PandoraMc M) (v cfg step w : J) (m : M), matchingCostCheck pandora v = .ok (cfg, step, w, m) →
    (∀ f r, pandora f = .ok r → ∃ v i, f.get "step" = some v ∧ IsInt false v i ∧ 1 ≤ i) →
    ∃ sr sc i j, step = .arr (.cons sr (.cons sc .nil)) ∧ IsInt false sr i ∧ IsInt false sc j ∧ 1 ≤ i ∧ 1 ≤ j

/-- C73: the step of an accepted matching cost is a list of two values; when Pandora only accepts integers the column step is a positive
integer, and the row step is a number at least one. Missing: the row step may be `True`, a float or infinity
(`C73_float_row_step_false`). -/
theorem C73_accepted_steps_partial {M : Type} (pandora : PandoraMc M) (v cfg step w : J) (m : M)
    (h : matchingCostCheck pandora v = .ok (cfg, step, w, m))
    (hp : ∀ f r, pandora f = .ok r → ∃ v i, f.get "step" = some v ∧ IsInt false v i ∧ 1 ≤ i) :
    ∃ sr sc j, step = .arr (.cons sr (.cons sc .nil)) ∧ AtLeastOne sr ∧ IsInt false sc j ∧ 1 ≤ j ∧
      (∀ f s, v = .obj f → f.get "step" = some s → step = s) := by
  cases v with
  | obj f =>
    simp only [matchingCostCheck] at h
    split at h
    · simp at h
    · rename_i method _
      split_ifs at h with hs
      rw [Bool.and_eq_true, stepSchema_iff] at hs
      obtain ⟨-, sr, sc, e, h1, h2⟩ := hs
      simp only [e] at h
      split at h
      · simp at h
      · rename_i w' sp so m' hpan
        simp only [Except.ok.injEq, Prod.mk.injEq] at h
        obtain ⟨x, j, hx, hj, hj1⟩ := hp _ _ hpan
        rw [Fields.get_set, if_pos rfl, Option.some.injEq] at hx
        subst hx
        refine ⟨sr, sc, j, h.2.1.symm, h1, hj, hj1, ?_⟩
        rintro f' s ⟨⟩ hf
        rw [hf] at e
        rw [← h.2.1, ← e]
        rfl
  | _ => simp [matchingCostCheck] at h

/-- C73, the rejected steps: anything but a list of two numbers at least one raises the checker's error. -/
theorem C73_wrong_steps_raise {M : Type} (pandora : PandoraMc M) (f : Fields) (method s : J)
    (hm : f.get "matching_cost_method" = some method) (hs : f.get "step" = some s)
    (hw : ¬ ∃ sr sc, s = .arr (.cons sr (.cons sc .nil)) ∧ AtLeastOne sr ∧ AtLeastOne sc) :
    matchingCostCheck pandora (.obj f) = .error .checker := by
  rw [← stepSchema_iff] at hw
  simp only [matchingCostCheck, hm, hs, Option.getD_some]
  rw [if_neg (by simp [hw])]

/-- A Pandora which accepts the positive integer steps. -/
def stepPandora : PandoraMc Unit := fun f =>
  match f.get "step" with
  | some (.int i) => if 1 ≤ i then .ok (.int 5, .int 1, .int 1, ()) else .error .checker
  | _ => .error .checker

theorem stepPandora_int (f : Fields) (r) (h : stepPandora f = .ok r) : ∃ v i, f.get "step" = some v ∧ IsInt false v i ∧ 1 ≤ i := by
  unfold stepPandora at h
  split at h
  · rename_i i hi
    split_ifs at h with h1
    exact ⟨_, i, hi, Or.inl rfl, h1⟩
  · simp at h

def stepCfg (sr sc : J) : J :=
  .obj (mk [("matching_cost_method", .str "ssd"), ("step", .arr (.cons sr (.cons sc .nil)))])

/-- Examples for C73: steps 3 and 2 are accepted, 0 is not. -/
example : (matchingCostCheck stepPandora (stepCfg (.int 3) (.int 2))).toOption.isSome = true := by decide +kernel
example : matchingCostCheck stepPandora (stepCfg (.int 0) (.int 2)) = .error .checker := by decide +kernel

/-- C73 is false of the code: a row step of 3/2 is accepted. -/
theorem C73_float_row_step_false : ¬ C73Statement := by
  intro h
  cases hc : matchingCostCheck stepPandora (stepCfg (.float (.fin (3 / 2))) (.int 2)) with
  | error e =>
    have : (matchingCostCheck stepPandora (stepCfg (.float (.fin (3 / 2))) (.int 2))).toOption.isSome = true := by decide +kernel
    rw [hc] at this
    simp [Except.toOption] at this
  | ok r =>
    obtain ⟨cfg, step, w, m⟩ := r
    obtain ⟨sr, sc, i, j, e, hi, -⟩ := h Unit stepPandora _ cfg step w m hc stepPandora_int
    obtain ⟨sr', sc', j', e', -, -, -, hs⟩ := C73_accepted_steps_partial stepPandora _ _ _ _ _ hc stepPandora_int
    have := hs _ _ rfl rfl
    rw [this] at e
    simp only [J.arr.injEq, Js.cons.injEq] at e
    rw [← e.1] at hi
    simp [IsInt] at hi

end Verif.Props
