import Verif.Spec.RefinedMirror
import Verif.Props.RefinedSymmetry
import Verif.Props.FlowSymmetry

/-!
# C135: mirrored images with a dichotomy
-/

namespace Verif.Props

open Verif Verif.Config Verif.Machine Verif.ImgTools Verif.MatchingCost Verif.Disparity Verif.Run Verif.Main Verif.Spec Verif.Save
  Verif.Statistics

set_option linter.unusedSectionVars false

variable {K : Type} [Field K] [LinearOrder K] [IsStrictOrderedRing K] [FloorRing K]

/-! ### The kernel -/

theorem keys_even (d : K) : keys (-d) = keys d := by
  unfold keys
  rw [abs_neg]

theorem keys_ends : keys (0 : K) = 1 ∧ keys (1 : K) = 0 ∧ keys (2 : K) = 0 := by
  refine ⟨?_, ?_, ?_⟩
  · simp [keys]
  · simp only [keys, abs_one, le_refl, if_true]; norm_num
  · have : |(2 : K)| = 2 := abs_of_pos two_pos
    simp only [keys, this]
    rw [if_neg (by norm_num), if_pos le_rfl]; norm_num

/-- The interpolation along one axis. -/
def along (u : K → K) (x : K) : K := ∑ a ∈ Finset.range 4, keysKernel.weight (Int.fract (x * (1 : Nat))) a * u (node keysKernel 1 x a)

theorem along_whole (u : K → K) (m : Int) : along u (m : K) = u m := by
  obtain ⟨k0, k1, k2⟩ := keys_ends (K := K)
  have e : Int.fract ((m : K) * (1 : Nat)) = 0 := by simp
  have f : ⌊(m : K) * (1 : Nat)⌋ = m := by simp
  unfold along
  rw [e]
  simp only [Finset.sum_range_succ, Finset.sum_range_zero, keysKernel, node, f]
  rw [show (0 : K) - ((0 : Nat) - 1) = 1 by push_cast; ring, show (0 : K) - ((1 : Nat) - 1) = 0 by push_cast; ring,
    show (0 : K) - ((2 : Nat) - 1) = -1 by push_cast; ring, show (0 : K) - ((3 : Nat) - 1) = -2 by push_cast; ring, keys_even, keys_even, k0, k1, k2]
  simp

/-- The interpolation along a reversed axis. -/
theorem along_opposed (t : Bool) (u : K → K) (x : K) : along (fun z => u (opposed t z)) (opposed t x) = along u x := by
  cases t
  · rfl
  · simp only [opposed, if_true]
    by_cases h : Int.fract x = 0
    · obtain ⟨m, rfl⟩ : ∃ m : Int, x = m := ⟨⌊x⌋, by have := Int.floor_add_fract x; rw [h, add_zero] at this; exact this.symm⟩
      rw [← Int.cast_neg, along_whole, along_whole]
      simp
    · have e : Int.fract (-x * (1 : Nat)) = 1 - Int.fract (x * (1 : Nat)) := by
        rw [Nat.cast_one, mul_one, mul_one, Int.fract_neg h]
      have f : ⌊-x * (1 : Nat)⌋ = -⌊x * (1 : Nat)⌋ - 1 := by
        rw [Nat.cast_one, mul_one, mul_one, Int.floor_neg]
        have : ⌈x⌉ = ⌊x⌋ + 1 := by
          have := (Int.ceil_eq_floor_add_one_iff_notMem x).2 fun ⟨m, hm⟩ => h (by rw [← hm]; simp)
          exact this
        omega
      unfold along
      rw [e, ← Finset.sum_range_reflect]
      refine Finset.sum_congr rfl fun a ha => ?_
      have ha4 : a < 4 := Finset.mem_range.1 ha
      congr 1
      · simp only [keysKernel]
        rw [← keys_even]
        congr 1
        rw [show 4 - 1 - a = 3 - a by omega, Nat.cast_sub (by omega)]
        push_cast
        ring
      · show u _ = u _
        congr 1
        simp only [node, keysKernel, f]
        rw [show 4 - 1 - a = 3 - a by omega]
        push_cast [Nat.cast_sub (show a ≤ 3 by omega)]
        ring

/-- The samples read around `x`, from both sides, when it is less than one from a disparity strictly inside an interval. -/
theorem node_opposed {lo hi : Int} {m : Int} (hm : lo < m ∧ m < hi) {x : K} (hx : |x - m| < 1) (t : Bool) {a : Nat} (ha : a < 4) :
    ∃ z : Int, opposed t (node keysKernel 1 (opposed t x) a) = (z : K) ∧ lo - 1 ≤ z ∧ z ≤ hi + 1 := by
  rw [abs_lt] at hx
  have e : ∀ y : K, node keysKernel 1 y a = ((⌊y⌋ - 1 + a : Int) : K) := by
    intro y
    simp [node, keysKernel]
  have f1 : m - 1 ≤ ⌊x⌋ := Int.le_floor.2 (by push_cast; linarith)
  have f2 : ⌊x⌋ < m + 1 := Int.floor_lt.2 (by push_cast; linarith)
  cases t
  · refine ⟨⌊x⌋ - 1 + a, e _, ?_, ?_⟩
    · rcases Int.lt_or_le ⌊x⌋ m with q | q <;> omega
    · omega
  · simp only [opposed, if_true]
    have g1 : -m - 1 ≤ ⌊-x⌋ := Int.le_floor.2 (by push_cast; linarith)
    have g2 : ⌊-x⌋ < -m + 1 := Int.floor_lt.2 (by push_cast; linarith)
    exact ⟨-(⌊-x⌋ - 1 + a), by rw [e]; push_cast; ring, by omega, by omega⟩

/-- The filter on reversed axes, when all the samples are numbers. -/
theorem filtered_opposed (tr tc : Bool) {cost : K → K → F K} {lr hr lc hc mx my : Int} (hx0 : lr < mx ∧ mx < hr) (hy0 : lc < my ∧ my < hc)
    (hn : ∀ x y : Int, lr - 1 ≤ x ∧ x ≤ hr + 1 → lc - 1 ≤ y ∧ y ≤ hc + 1 → cost (x : K) (y : K) ≠ .nan) {x y : K} (hx : |x - mx| < 1)
    (hy : |y - my| < 1) :
    filtered keysKernel 1 (fun a b => cost (opposed tr a) (opposed tc b)) (opposed tr x) (opposed tc y) = filtered keysKernel 1 cost x y := by
  unfold filtered
  rw [if_neg, if_neg]
  · have split : ∀ (F : K → K → K) (p q : K), (∑ a ∈ Finset.range 4, ∑ b ∈ Finset.range 4, keysKernel.weight (Int.fract (p * (1 : Nat))) a *
        keysKernel.weight (Int.fract (q * (1 : Nat))) b * F (node keysKernel 1 p a) (node keysKernel 1 q b)) = along (fun z => along (F z) q) p := by
      intro F p q
      unfold along
      refine Finset.sum_congr rfl fun a _ => ?_
      rw [Finset.mul_sum]
      exact Finset.sum_congr rfl fun b _ => by ring
    have s1 := split (fun p q => amount (cost (opposed tr p) (opposed tc q))) (opposed tr x) (opposed tc y)
    have s2 := split (fun p q => amount (cost p q)) x y
    simp only [keysKernel] at s1 s2 ⊢
    rw [s1, s2]
    congr 1
    have h1 : ∀ z, along (fun q => amount (cost (opposed tr z) (opposed tc q))) (opposed tc y) = along (fun q => amount (cost (opposed tr z) q)) y :=
      fun z => along_opposed tc (fun q => amount (cost (opposed tr z) q)) y
    simp only [h1]
    exact along_opposed tr (fun z => along (fun q => amount (cost z q)) y) x
  · rintro ⟨a, ha, b, hb, e⟩
    obtain ⟨z1, e1, w1⟩ := node_opposed hx0 hx false ha
    obtain ⟨z2, e2, w2⟩ := node_opposed hy0 hy false hb
    simp only [opposed, Bool.false_eq_true, if_false] at e1 e2
    rw [e1, e2] at e
    exact hn _ _ w1 w2 e
  · rintro ⟨a, ha, b, hb, e⟩
    obtain ⟨z1, e1, w1⟩ := node_opposed hx0 hx tr ha
    obtain ⟨z2, e2, w2⟩ := node_opposed hy0 hy tc hb
    simp only at e
    rw [e1, e2] at e
    exact hn _ _ w1 w2 e

/-! ### The search -/

def opposedMove (tr tc : Bool) (s : Int × Int) : Int × Int := (opposed tr s.1, opposed tc s.2)

theorem opposedMove_twice (tr tc : Bool) (s : Int × Int) : opposedMove tr tc (opposedMove tr tc s) = s := by
  unfold opposedMove
  simp only [opposed_opposed]

theorem opposed_step (t : Bool) (x h : K) (s : Int) : opposed t x + ((opposed t s : Int) : K) * h = opposed t (x + s * h) := by
  cases t <;> simp [opposed]
  ring

/-- A search which never has to choose, on reversed axes. -/
theorem path_opposed (tr tc : Bool) {me : Measure} {val val' : K → K → F K} {it k : Nat} {x y x1 y1 : K} {v v1 : F K}
    (p : Path me val it k x y v x1 y1 v1)
    (hv : ∀ x' y' : K, |x' - x| < 1 / 2 ^ k → |y' - y| < 1 / 2 ^ k → val' (opposed tr x') (opposed tc y') = val x' y')
    (hn : NoTies me val it k x y v) : Path me val' it k (opposed tr x) (opposed tc y) v (opposed tr x1) (opposed tc y1) v1 := by
  induction p with
  | stop h => exact .stop h
  | @move k x y v s x' y' v' h hs hp ih =>
    have hp0 : (0 : K) < 1 / 2 ^ (k + 1) := by positivity
    have hh := half_step (K := K) k
    have ar : ∀ t : Int × Int, Around t → Around (opposedMove tr tc t) := by
      rintro ⟨t1, t2⟩ ⟨h1, h2⟩
      unfold Around opposedMove opposed
      simp only at h1 h2 ⊢
      refine ⟨?_, ?_⟩ <;> split_ifs <;> omega
    have tr1 : ∀ t : Int × Int, Around t → tried val' (1 / 2 ^ (k + 1)) (opposed tr x) (opposed tc y) v (opposedMove tr tc t) =
        tried val (1 / 2 ^ (k + 1)) x y v t := by
      intro t ht
      unfold tried
      have z : opposedMove tr tc t = (0, 0) ↔ t = (0, 0) := by
        unfold opposedMove opposed
        rw [Prod.ext_iff, Prod.ext_iff]
        simp only
        refine and_congr ?_ ?_ <;> split_ifs <;> omega
      simp only [z]
      split_ifs with h0
      · rfl
      · simp only [opposedMove]
        rw [opposed_step, opposed_step]
        refine hv _ _ ?_ ?_
        · have := (around_near ht (k := k) x).1
          linarith
        · have := (around_near ht (k := k) y).2
          linarith
    have tr2 : ∀ t : Int × Int, Around t → tried val' (1 / 2 ^ (k + 1)) (opposed tr x) (opposed tc y) v t =
        tried val (1 / 2 ^ (k + 1)) x y v (opposedMove tr tc t) := fun t ht => by
      rw [← tr1 _ (ar _ ht), opposedMove_twice]
    refine .move h (s := opposedMove tr tc s) ⟨ar _ hs.around, ?_, fun t ht q => ?_, fun hf => ?_, fun hf t ht e => ?_⟩ ?_
    · rw [tr1 _ hs.around]
      exact hs.number
    · rw [tr2 _ ht] at q
      rw [tr2 _ ht, tr1 _ hs.around]
      exact hs.best _ (ar _ ht) q
    · rw [hs.flat fun t ht => by rw [← tr1 _ ht]; exact hf _ (ar _ ht)]
      simp [opposedMove, opposed]
    · rw [tr2 _ ht, tr1 _ hs.around] at e
      obtain ⟨u, hu, q⟩ := hf
      rw [tr2 _ hu] at q
      have := hn k x y v s le_rfl h (.stop le_rfl) hs ⟨_, ar _ hu, q⟩ _ (ar _ ht) e
      rw [← this, opposedMove_twice]
      exact .inr ⟨rfl, le_rfl⟩
    · rw [tr1 _ hs.around]
      simp only [opposedMove]
      rw [opposed_step, opposed_step]
      refine ih (fun x2 y2 h1 h2 => hv _ _ ?_ ?_) fun j x2 y2 v2 s2 h1 h2 h3 => hn j x2 y2 v2 s2 (by omega) h2 (.move (by omega) hs h3)
      · have q := (around_near hs.around (k := k) x).1
        have := abs_sub_le x2 (x + s.1 * (1 / 2 ^ (k + 1))) x
        linarith
      · have q := (around_near hs.around (k := k) y).2
        have := abs_sub_le y2 (y + s.2 * (1 / 2 ^ (k + 1))) y
        linarith

/-! ### Intervals and costs -/

theorem ends_opposed {t : Bool} {lo hi lo' hi' : Int} (h : ∀ z : Int, (lo ≤ z ∧ z ≤ hi) ↔ (lo' ≤ opposed t z ∧ opposed t z ≤ hi')) (he : lo ≤ hi) :
    lo' = (if t then -hi else lo) ∧ hi' = (if t then -lo else hi) := by
  have h1 := (h lo).1 ⟨le_rfl, he⟩
  have h2 := (h hi).1 ⟨he, le_rfl⟩
  cases t
  · simp only [opposed, Bool.false_eq_true, if_false] at *
    have h3 := (h lo').2 ⟨le_rfl, by omega⟩
    have h4 := (h hi').2 ⟨by omega, le_rfl⟩
    omega
  · simp only [opposed, if_true] at *
    have h3 := (h (-lo')).2 ⟨by omega, by omega⟩
    have h4 := (h (-hi')).2 ⟨by omega, by omega⟩
    omega

theorem extent_mirrored {tr tc t : Bool} {d d' : Disp} {left left' : Img K} {H W : Nat} {f l f' l' : Int} (hs : left.h = H ∧ left.w = W)
    (hs' : left'.h = H ∧ left'.w = W) (h0 : left.row0 = 0 ∧ left.col0 = 0) (h0' : left'.row0 = 0 ∧ left'.col0 = 0)
    (hi : MirroredIntervals tr tc t d d' H W) (hd : 0 ≤ d.range) (h : Extent d left f l) (h' : Extent d' left' f' l') :
    f' = (if t then -l else f) ∧ l' = (if t then -f else l) := by
  obtain ⟨⟨e1, e2⟩, e3, e4⟩ := And.intro h0 h0'
  have a1 := h.inside
  have a2 := h'.inside
  obtain ⟨u1, hu1, v1, hv1, w1⟩ := h.reached
  obtain ⟨u2, hu2, v2, hv2, w2⟩ := h.reached'
  obtain ⟨u3, hu3, v3, hv3, w3⟩ := h'.reached
  obtain ⟨u4, hu4, v4, hv4, w4⟩ := h'.reached'
  rw [hs.1] at hu1 hu2 a1
  rw [hs.2] at hv1 hv2 a1
  rw [hs'.1] at hu3 hu4 a2
  rw [hs'.2] at hv3 hv4 a2
  rw [e1, e2] at w1 w2 a1
  rw [e3, e4] at w3 w4 a2
  simp only [zero_add] at w1 w2 w3 w4 a1 a2
  have key : ∀ u < H, ∀ v < W, _ := fun u hu v hv => ends_opposed (hi u hu v hv) (by omega)
  have k1 := key u1 hu1 v1 hv1
  have k2 := key u2 hu2 v2 hv2
  have b1 := a2 _ (turned_turned (t := tr) hu1).2 _ (turned_turned (t := tc) hv1).2
  have b2 := a2 _ (turned_turned (t := tr) hu2).2 _ (turned_turned (t := tc) hv2).2
  have k3 := key _ (turned_turned (t := tr) hu3).2 _ (turned_turned (t := tc) hv3).2
  have k4 := key _ (turned_turned (t := tr) hu4).2 _ (turned_turned (t := tc) hv4).2
  rw [(turned_turned hu3).1, (turned_turned hv3).1] at k3
  rw [(turned_turned hu4).1, (turned_turned hv4).1] at k4
  have b3 := a1 _ (turned_turned (t := tr) hu3).2 _ (turned_turned (t := tc) hv3).2
  have b4 := a1 _ (turned_turned (t := tr) hu4).2 _ (turned_turned (t := tc) hv4).2
  cases t
  · simp only [Bool.false_eq_true, if_false] at *
    constructor <;> omega
  · simp only [if_true] at *
    constructor <;> omega

theorem wholeCost_mirrored {tr tc : Bool} {hw H W a b : Nat} {left right left' right' : Img K} {ker : List (F K × F K) → F K} (hk : OrderFree ker)
    (hl : Mirrored tr tc left left') (hr : Mirrored tr tc right right')
    (s : (left.h = H ∧ left.w = W) ∧ right.h = H ∧ right.w = W) (s' : (left'.h = H ∧ left'.w = W) ∧ right'.h = H ∧ right'.w = W)
    (ha : a < H) (hb : b < W) (u v : Int) :
    wholeCost hw ker left' right' (turned tr H a) (turned tc W b) (opposed tr u) (opposed tc v) = wholeCost hw ker left right a b u v := by
  have hc : Comparable hw left right a b u v ↔ Comparable hw left' right' (turned tr H a) (turned tc W b) (opposed tr u) (opposed tc v) := by
    refine ⟨comparable_mirrored hl hr s s', fun q => ?_⟩
    have := comparable_mirrored (mirrored_symm hl (by omega)) (mirrored_symm hr (by omega)) s' s q
    rwa [(turned_turned ha).1, (turned_turned hb).1, opposed_opposed, opposed_opposed] at this
  unfold wholeCost
  by_cases q : Comparable hw left right a b u v
  · rw [if_pos q, if_pos (hc.1 q), hk _ _ (pairs_mirrored hl hr s q.inside)]
  · rw [if_neg q, if_neg fun t => q (hc.2 t)]

/-- C135: mirroring the images (upside down, left to right, or both) opposes the disparities refined by a dichotomy with the bicubic filter. Two
successful executions on full images, without estimation, with disparities of whole pixels before the refinement and the same window cost, whose
measure does not depend on the order of the pixels in the window, iterations and invalid value; the images of the second are those of the first
mirrored, its intervals are opposed in the mirrored directions. At each pixel where one pair of disparities is better than the others, where the costs
read in the intervals extended by one pixel are numbers, and where the search never has to choose between two best moves: the disparities of the
second are, at the mirrored pixel, those of the first, opposed in the mirrored directions, and the scores are the same. -/
theorem C135_mirrored_dichotomy (tr tc : Bool) (w w' : World K) (user user' p p' mc mc' inp inp' l r l' r' f f' : Fields) (out out' : List (Written K))
    (H W : Nat) (dRow dCol dRow' dCol' : Disp) (invalid : F K) (hw : Nat) (me : Measure) (ker : List (F K × F K) → F K) (it : Nat)
    (wf : user.wf) (wf' : user'.wf)
    (hdisk : DiskContract w H W) (hpan : PandoraContract w) (hkeeps : PandoraKeeps w.pandora) (hzoom : w.run.zoom = zoomLinear)
    (hdisk' : DiskContract w' H W) (hpan' : PandoraContract w') (hkeeps' : PandoraKeeps w'.pandora) (hzoom' : w'.run.zoom = zoomLinear)
    (cfg : Dichotomised w user p mc inp l r f H W dRow dCol invalid 1 hw me ker it keysKernel)
    (cfg' : Dichotomised w' user' p' mc' inp' l' r' f' H W dRow' dCol' invalid 1 hw me ker it keysKernel) (hHW : 2 ≤ H ∧ 2 ≤ W) (hk : OrderFree ker)
    (himg : ∀ left right left' right', ImagesRead w l r none left right → ImagesRead w' l' r' none left' right' →
      Mirrored tr tc left left' ∧ Mirrored tr tc right right')
    (hnd : ∀ left right, ImagesRead w l r none left right → right.noData ≠ .nan)
    (ir : MirroredIntervals tr tc tr dRow dRow' H W) (ic : MirroredIntervals tr tc tc dCol dCol' H W)
    (h : Main.main w user = (out, none)) (h' : Main.main w' user' = (out', none)) :
    ∃ files rest files' rest' left right, out = .rasters files :: rest ∧ out' = .rasters files' :: rest' ∧ ImagesRead w l r none left right ∧
      (∀ f ∈ [files.row, files.col, files.score, files'.row, files'.col, files'.score], f.h = H ∧ f.w = W) ∧
      ∀ a < H, ∀ b < W, SoleBest me hw ker left right dRow dCol a b → NumbersAround hw ker left right dRow dCol a b →
        NeverChooses me keysKernel it hw ker left right dRow dCol a b → InvalidApart invalid dRow a b → InvalidApart invalid dCol a b →
        files'.row.values (turned tr H a) (turned tc W b) = opposedF tr (files.row.values a b) ∧
          files'.col.values (turned tr H a) (turned tc W b) = opposedF tc (files.col.values a b) ∧
          files'.score.values (turned tr H a) (turned tc W b) = files.score.values a b := by
  obtain ⟨s⟩ := dichotomised_stages cfg wf hpan h
  obtain ⟨s'⟩ := dichotomised_stages cfg' wf' hpan' h'
  obtain ⟨k, fr, lr, fc, lc, gmin, gmax, hk1, im, ⟨sl, sr⟩, o, ⟨x1, x2⟩, hg, z, key⟩ := s.dichotomised cfg wf hdisk hkeeps hzoom hHW
  obtain ⟨k', fr', lr', fc', lc', gmin', gmax', hk1', im', ⟨sl', sr'⟩, o', ⟨x1', x2'⟩, hg', z', key'⟩ :=
    s'.dichotomised cfg' wf' hdisk' hkeeps' hzoom' hHW
  obtain ⟨tl, tr'⟩ := himg _ _ _ _ im im'
  have hnd1 := hnd _ _ im
  have hnd2 : s'.right.img.noData ≠ .nan := by rw [tr'.noData]; exact hnd1
  have zero : ∀ k : Nat, 1 = 2 ^ k → k = 0 := fun k hk => by
    rcases Nat.eq_zero_or_pos k with h0 | h0
    · exact h0
    · have := Nat.one_lt_two_pow (n := k) (by omega)
      omega
  obtain rfl := zero _ hk1
  obtain rfl := zero _ hk1'
  refine ⟨s.files, _, s'.files, _, s.left.img, s.right.img, s.outIs, s'.outIs, im, fun f hf => ?_, fun a ha b hb sole num never av ac => ?_⟩
  · simp only [List.mem_cons, List.not_mem_nil, or_false] at hf z z'
    rcases hf with q | q | q | q | q | q
    · exact z f (.inl q)
    · exact z f (.inr (.inl q))
    · exact z f (.inr (.inr q))
    · exact z' f (.inl q)
    · exact z' f (.inr (.inl q))
    · exact z' f (.inr (.inr q))
  obtain ⟨X, Y, ⟨⟨i1, i2⟩, i3, i4⟩, only⟩ := sole
  have ha' := (turned_turned (t := tr) ha).2
  have hb' := (turned_turned (t := tc) hb).2
  obtain ⟨r0, c0, s0, cost, e1, b1, p1⟩ := key a ha b hb
  obtain ⟨r1, c1, s1, cost', e2, b2, p2⟩ := key' _ ha' _ hb'
  obtain ⟨g1, g2⟩ := hg a ha b hb
  obtain ⟨g1', g2'⟩ := hg' _ ha' _ hb'
  obtain ⟨q1, q2⟩ := ends_opposed (ir a ha b hb) (by omega)
  obtain ⟨q3, q4⟩ := ends_opposed (ic a ha b hb) (by omega)
  obtain ⟨t1, t2⟩ := extent_mirrored sl sl' o o' ir (by omega) x1 x1'
  obtain ⟨t3, t4⟩ := extent_mirrored sl sl' o o' ic (by omega) x2 x2'
  have num' := num _ _ _ _ x1 x2
  have never' := never _ _ _ _ x1 x2
  set C := costAt hw ker s.left.img s.right.img a b with hC
  -- the costs read are those of whole displacements
  have hcost : ∀ x y, ReadPair dRow dCol 1 (keysKernel (K := K)).before ((keysKernel (K := K)).size - 1 - (keysKernel (K := K)).before) a b x y →
      C x y = cost x y := by
    rintro x y ⟨⟨kx, ky, hx, hy⟩, -, u3, u4⟩
    rw [Nat.cast_one, mul_one] at hx hy
    subst hx hy
    rw [e1, slab_int, hC, costAt, Int.floor_intCast, Int.floor_intCast, window_whole hnd1]
    rw [g1, g2]
    exact ⟨Int.cast_le.1 u3, Int.cast_le.1 u4⟩
  have oint : ∀ (t : Bool) (z : Int), opposed t ((z : Int) : K) = ((opposed t z : Int) : K) := by
    intro t z
    cases t <;> simp [opposed]
  have hcost' : ∀ x y, ReadPair dRow' dCol' 1 (keysKernel (K := K)).before ((keysKernel (K := K)).size - 1 - (keysKernel (K := K)).before)
      ((turned tr H a : Nat) : Int) ((turned tc W b : Nat) : Int) x y → cost' x y = C (opposed tr x) (opposed tc y) := by
    rintro x y ⟨⟨kx, ky, hx, hy⟩, -, u3, u4⟩
    rw [Nat.cast_one, mul_one] at hx hy
    subst hx hy
    rw [e2, slab_int, window_whole hnd2 (by rw [g1', g2']; exact ⟨Int.cast_le.1 u3, Int.cast_le.1 u4⟩), hC, costAt, oint, oint, Int.floor_intCast,
      Int.floor_intCast, ← wholeCost_mirrored hk tl tr' ⟨sl, sr⟩ ⟨sl', sr'⟩ ha hb, opposed_opposed, opposed_opposed]
  have wide : ∀ (dRow dCol : Disp) (a b : Int) (x y : K), AskedPair dRow dCol 1 a b x y →
      ReadPair dRow dCol 1 (keysKernel (K := K)).before ((keysKernel (K := K)).size - 1 - (keysKernel (K := K)).before) a b x y := by
    rintro dRow dCol a b x y ⟨h1, ⟨h2, h3⟩, h4, h5⟩
    exact ⟨h1, ⟨le_trans (Int.cast_le.2 (by omega)) h2, le_trans h3 (Int.cast_le.2 (by omega))⟩,
      le_trans (Int.cast_le.2 (by omega)) h4, le_trans h5 (Int.cast_le.2 (by omega))⟩
  have ask : ∀ x y : Int, AskedPair dRow dCol 1 (a : Int) (b : Int) (x : K) (y : K) ↔ InIntervals dRow dCol a b x y := by
    intro x y
    unfold AskedPair InIntervals
    simp only [Int.cast_le]
    exact ⟨fun q => q.2, fun q => ⟨⟨x, y, by simp, by simp⟩, q⟩⟩
  have cint : ∀ x y : Int, C (x : K) (y : K) = wholeCost hw ker s.left.img s.right.img a b x y := by
    intro x y
    rw [hC, costAt, Int.floor_intCast, Int.floor_intCast]
  have costs : ∀ x y, AskedPair dRow dCol 1 (a : Int) (b : Int) x y → cost' (opposed tr x) (opposed tc y) = cost x y := by
    intro x y q
    rw [hcost' _ _ (wide _ _ _ _ _ _ ((asked_mirrored ir ic ha hb x y).1 q)), opposed_twice, opposed_twice, hcost _ _ (wide _ _ _ _ _ _ q)]
  have askXY : AskedPair dRow dCol 1 (a : Int) (b : Int) (X : K) (Y : K) := (ask X Y).2 ⟨⟨i1, i2⟩, i3, i4⟩
  have hcXY : cost (X : K) (Y : K) ≠ .nan := by
    have := num' X Y (by omega) (by omega)
    rw [← hcost _ _ (wide _ _ _ _ _ _ askXY)]
    intro e
    apply this
    unfold seen
    split_ifs
    · exact e
    · rfl
  -- the starting pairs
  have start : r0 = .fin (X : K) ∧ c0 = .fin (Y : K) ∧ r1 = .fin (opposed tr (X : K)) ∧ c1 = .fin (opposed tc (Y : K)) := by
    obtain ⟨⟨n0, x0, y0, a0, k0⟩, bst⟩ := b1.best ⟨_, _, askXY, hcXY⟩
    have better := bst _ ⟨hcXY, _, _, askXY, rfl⟩
    have uniq : ∀ x y, AskedPair dRow dCol 1 (a : Int) (b : Int) x y → cost x y = s0 → x = X ∧ y = Y := by
      intro x y q e
      have q' := q
      obtain ⟨⟨kx, ky, hx, hy⟩, -⟩ := q'
      rw [Nat.cast_one, mul_one] at hx hy
      subst hx hy
      rw [← e, ← hcost _ _ (wide _ _ _ _ _ _ q), ← hcost _ _ (wide _ _ _ _ _ _ askXY), cint, cint] at better
      obtain ⟨rfl, rfl⟩ := only kx ky ((ask kx ky).1 q) better
      exact ⟨rfl, rfl⟩
    have hs0 : cost (X : K) (Y : K) = s0 := by
      obtain ⟨rfl, rfl⟩ := uniq _ _ a0 k0
      exact k0
    rcases best_moved (opposed tr) (opposed tc) (opposed_twice tr) (opposed_twice tc) (asked_mirrored ir ic ha hb) costs b1 b2 with q | ⟨-, -, q⟩
    · obtain ⟨dr, dc, ed, -, ⟨y', m1, m2⟩, -⟩ := b1.smallest ⟨_, _, askXY, hcXY⟩
      obtain ⟨rfl, -⟩ := uniq _ _ m1 m2
      exact absurd (q.1.symm.trans ed) (av X i1 i2).1
    · exact q X Y fun x' y' => ⟨fun ⟨m1, m2⟩ => uniq _ _ m1 m2, by rintro ⟨rfl, rfl⟩; exact ⟨askXY, hs0⟩⟩
  obtain ⟨er0, ec0, er1, ec1⟩ := start
  -- what is read on the reversed axes
  have rd : ∀ (t : Bool) (d d' : Disp) (f l f' l' : Int), initAt d' (turned tr H a : Nat) (turned tc W b : Nat) - d'.range =
        (if t then -(initAt d a b + d.range) else initAt d a b - d.range) →
      initAt d' (turned tr H a : Nat) (turned tc W b : Nat) + d'.range = (if t then -(initAt d a b - d.range) else initAt d a b + d.range) →
      f' = (if t then -l else f) → l' = (if t then -f else l) → ∀ x : K,
      ReadDisp d' f' l' (turned tr H a : Nat) (turned tc W b : Nat) x ↔ ReadDisp d f l a b (opposed t x) := by
    intro t d d' f l f' l' h1 h2 h3 h4 x
    unfold ReadDisp
    rw [h1, h2, h3, h4]
    cases t
    · rfl
    · simp only [if_true, opposed, Int.cast_neg]
      refine or_congr ?_ ?_
      · rw [and_comm]
        exact and_congr ⟨fun q => by linarith, fun q => by linarith⟩ ⟨fun q => by linarith, fun q => by linarith⟩
      · rw [or_comm]
        exact or_congr ⟨fun q => by linarith, fun q => by linarith⟩ ⟨fun q => by linarith, fun q => by linarith⟩
  have hseen' : seen dRow' dCol' fr' lr' fc' lc' ((turned tr H a : Nat) : Int) ((turned tc W b : Nat) : Int)
      (fun x y => C (opposed tr x) (opposed tc y)) = fun x y => seen dRow dCol fr lr fc lc a b C (opposed tr x) (opposed tc y) := by
    funext x y
    unfold seen
    have e : (ReadDisp dRow' fr' lr' ((turned tr H a : Nat) : Int) ((turned tc W b : Nat) : Int) x ∧
        ReadDisp dCol' fc' lc' ((turned tr H a : Nat) : Int) ((turned tc W b : Nat) : Int) y) ↔
        (ReadDisp dRow fr lr a b (opposed tr x) ∧ ReadDisp dCol fc lc a b (opposed tc y)) :=
      and_congr (rd tr dRow dRow' _ _ _ _ q1 q2 t1 t2 x) (rd tc dCol dCol' _ _ _ _ q3 q4 t3 t4 y)
    by_cases hq : ReadDisp dRow fr lr a b (opposed tr x) ∧ ReadDisp dCol fc lc a b (opposed tc y)
    · rw [if_pos hq, if_pos (e.2 hq)]
    · rw [if_neg hq, if_neg fun q => hq (e.1 q)]
  have hseen : ∀ x y, ReadPair dRow dCol 1 (keysKernel (K := K)).before ((keysKernel (K := K)).size - 1 - (keysKernel (K := K)).before) a b x y →
      seen dRow dCol fr lr fc lc a b C x y = seen dRow dCol fr lr fc lc a b cost x y := by
    intro x y hq
    unfold seen
    split_ifs
    · exact hcost x y hq
    · rfl
  have hsXY := hseen _ _ (wide _ _ _ _ _ _ askXY)
  have nr0 : r0 ≠ invalid := by rw [er0]; exact (av X i1 i2).1.symm
  have nc0 : c0 ≠ invalid := by rw [ec0]; exact (ac Y i3 i4).1.symm
  have inv : ∀ (t : Bool) (x : Int), invalid ≠ .fin (x : K) ∧ invalid ≠ .fin ((-x : Int) : K) → (.fin (opposed t (x : K)) : F K) ≠ invalid := by
    intro t x ⟨h1, h2⟩
    cases t
    · exact h1.symm
    · rw [Int.cast_neg] at h2
      exact h2.symm
  have nr1 : r1 ≠ invalid := by rw [er1]; exact inv tr X (av X i1 i2)
  have nc1 : c1 ≠ invalid := by rw [ec1]; exact inv tc Y (ac Y i3 i4)
  have ends : ∀ (t : Bool) (lo hi lo' hi' x : Int), lo' = (if t then -hi else lo) → hi' = (if t then -lo else hi) →
      (AtEnd lo' hi' (.fin (opposed t (x : K))) ↔ AtEnd lo hi (.fin (x : K))) := by
    intro t lo hi lo' hi' x h1 h2
    unfold AtEnd
    rw [oint, F.fin.injEq, F.fin.injEq, F.fin.injEq, F.fin.injEq, Int.cast_inj, Int.cast_inj, Int.cast_inj, Int.cast_inj, h1, h2]
    cases t
    · rfl
    · simp only [if_true, opposed]
      omega
  have p3 : SearchedPixel me (seen dRow' dCol' fr' lr' fc' lc' ((turned tr H a : Nat) : Int) ((turned tc W b : Nat) : Int)
        (fun x y => C (opposed tr x) (opposed tc y)))
      (filtered keysKernel 1 (seen dRow' dCol' fr' lr' fc' lc' ((turned tr H a : Nat) : Int) ((turned tc W b : Nat) : Int)
        (fun x y => C (opposed tr x) (opposed tc y)))) 0 it
      (initAt dRow' (turned tr H a : Nat) (turned tc W b : Nat) - dRow'.range) (initAt dRow' (turned tr H a : Nat) (turned tc W b : Nat) + dRow'.range)
      (initAt dCol' (turned tr H a : Nat) (turned tc W b : Nat) - dCol'.range) (initAt dCol' (turned tr H a : Nat) (turned tc W b : Nat) + dCol'.range)
      invalid r1 c1 (opposedF tr (s.files.row.values a b)) (opposedF tc (s.files.col.values a b)) (s.files.score.values a b) := by
    rw [hseen']
    have pos : ∀ x y, r1 = .fin x → c1 = .fin y → opposed tr x = X ∧ opposed tc y = Y := by
      intro x y ex ey
      rw [er1, F.fin.injEq] at ex
      rw [ec1, F.fin.injEq] at ey
      rw [← ex, ← ey, opposed_twice, opposed_twice]
      exact ⟨rfl, rfl⟩
    have opF : ∀ (t : Bool) (x : K), opposedF t (.fin x) = .fin (opposed t x) := by
      intro t x
      cases t <;> rfl
    have e4 : (AtEnd (initAt dRow' (turned tr H a : Nat) (turned tc W b : Nat) - dRow'.range)
          (initAt dRow' (turned tr H a : Nat) (turned tc W b : Nat) + dRow'.range) r1 ∨
        AtEnd (initAt dCol' (turned tr H a : Nat) (turned tc W b : Nat) - dCol'.range)
          (initAt dCol' (turned tr H a : Nat) (turned tc W b : Nat) + dCol'.range) c1) ↔
        (AtEnd (initAt dRow a b - dRow.range) (initAt dRow a b + dRow.range) r0 ∨ AtEnd (initAt dCol a b - dCol.range) (initAt dCol a b + dCol.range) c0) := by
      rw [er1, ec1, er0, ec0]
      exact or_congr (ends tr _ _ _ _ X q1 q2) (ends tc _ _ _ _ Y q3 q4)
    refine ⟨fun hq => ?_, fun x y ex ey _ _ hq => ?_, fun x y ex ey _ _ hq hne => ?_⟩
    · exact absurd hq (not_or.2 ⟨nr1, nc1⟩)
    · obtain ⟨ox, oy⟩ := pos x y ex ey
      simp only [ox, oy, hsXY] at hq ⊢
      obtain ⟨d1, d2, d3⟩ := p1.kept X Y er0 ec0 nr0 nc0 (hq.imp e4.1 id)
      rw [d1, d2, d3, er0, ec0, er1, ec1, opF, opF]
      exact ⟨rfl, rfl, rfl⟩
    · obtain ⟨ox, oy⟩ := pos x y ex ey
      simp only [ox, oy, hsXY] at hne ⊢
      have nE := mt e4.2 hq
      obtain ⟨x5, y5, v5, d1, d2, d3, path⟩ := p1.searched X Y er0 ec0 nr0 nc0 nE hne
      rw [not_or, er0, ec0] at nE
      obtain ⟨k1, k2⟩ := nE
      unfold AtEnd at k1 k2
      simp only [F.fin.injEq, Int.cast_inj, not_or] at k1 k2
      have hX : initAt dRow a b - dRow.range < X ∧ X < initAt dRow a b + dRow.range := by omega
      have hY : initAt dCol a b - dCol.range < Y ∧ Y < initAt dCol a b + dCol.range := by omega
      have one : ∀ v : F K, F.mul (.fin 1) v = v := by
        intro v
        cases v <;> simp [F.mul]
      have tk := path_scaled one_pos path (val' := filtered keysKernel 1 (seen dRow dCol fr lr fc lc a b C)) fun x2 y2 h1 h2 => by
        have h1' : |x2 - (X : K)| < 1 / (1 : Nat) := by simpa using h1
        have h2' : |y2 - (Y : K)| < 1 / (1 : Nat) := by simpa using h2
        refine filtered_scaled one_pos fun a ha b hb => ?_
        rw [one]
        refine hseen _ _ ?_
        obtain ⟨⟨z1, w1⟩, w2, w3⟩ := node_inside one_pos ⟨X, by simp⟩ ⟨Int.cast_lt.2 hX.1, Int.cast_lt.2 hX.2⟩ h1' ha
        obtain ⟨⟨z2, w4⟩, w5, w6⟩ := node_inside one_pos ⟨Y, by simp⟩ ⟨Int.cast_lt.2 hY.1, Int.cast_lt.2 hY.2⟩ h2' hb
        exact ⟨⟨z1, z2, w1, w4⟩, ⟨w2, w3⟩, w5, w6⟩
      rw [one, one] at tk
      have hv : seen dRow dCol fr lr fc lc a b cost (X : K) (Y : K) = C X Y := by
        rw [← hsXY] at hne ⊢
        unfold seen at hne ⊢
        by_cases hq : ReadDisp dRow fr lr (a : Int) (b : Int) (X : K) ∧ ReadDisp dCol fc lc (a : Int) (b : Int) (Y : K)
        · rw [if_pos hq]
        · rw [if_neg hq] at hne
          exact absurd rfl hne
      rw [hv] at tk
      have res := path_opposed tr tc (val' := filtered keysKernel 1 fun x y => seen dRow dCol fr lr fc lc a b C (opposed tr x) (opposed tc y)) tk
        (fun x2 y2 h1 h2 => filtered_opposed tr tc hX hY num' (by simpa using h1) (by simpa using h2)) (never' X Y hX hY)
      rw [← hv] at res
      rw [d1, d2, opF, opF]
      refine ⟨opposed tr x5, opposed tc y5, v5, rfl, rfl, d3, ?_⟩
      have e5 : x = opposed tr (X : K) := by rw [← ox, opposed_twice]
      have e6 : y = opposed tc (Y : K) := by rw [← oy, opposed_twice]
      rw [e5, e6]
      exact res
  have b3 : BestPair me (AskedPair dRow' dCol' 1 ((turned tr H a : Nat) : Int) ((turned tc W b : Nat) : Int))
      (fun x y => C (opposed tr x) (opposed tc y)) invalid r1 c1 s1 := best_congr (fun x y q => (hcost' x y (wide _ _ _ _ _ _ q))) b2
  exact searched_moved (cost' := cost') hk1 ⟨rfl, rfl⟩ ⟨rfl, rfl⟩ hcost' b3 p3 b2 p2

/-! ## Example -/

theorem exSlope_numbers :
    NumbersAround 0 sad (exImgSix fun _ _ => .fin 0) (exImgSix (exNumbers exSlope)) ⟨.const 0, 1⟩ ⟨.const 0, 1⟩ 2 2 := by
  intro fr lr fc lc e1 e2 x y hx hy
  obtain ⟨rfl, rfl⟩ := exExtent e1
  obtain ⟨rfl, rfl⟩ := exExtent e2
  simp only [initAt] at hx hy
  have rd : ∀ x : Int, ReadDisp ⟨.const 0, 1⟩ (-1) 1 ((2 : Nat) : Int) ((2 : Nat) : Int) (x : ℚ) := by
    intro x
    unfold ReadDisp
    simp only [initAt, Int.cast_le, Int.cast_lt]
    omega
  rw [seen, if_pos ⟨rd _, rd _⟩, exNumbers_cost exSlope exSlope_nonneg x y (by omega) (by omega)]
  simp

theorem exSlope_sole : SoleBest .min 0 sad (exImgSix fun _ _ => .fin 0) (exImgSix (exNumbers exSlope)) ⟨.const 0, 1⟩ ⟨.const 0, 1⟩ 2 2 := by
  have hc : ∀ x y : Int, -1 ≤ x ∧ x ≤ 1 → -1 ≤ y ∧ y ≤ 1 →
      wholeCost 0 sad (exImgSix fun _ _ => .fin 0) (exImgSix (exNumbers exSlope)) 2 2 x y = .fin (exSlope (2 + x).toNat (2 + y).toNat) := by
    intro x y hx hy
    have := exNumbers_cost exSlope exSlope_nonneg x y (by omega) (by omega)
    rwa [costAt, Int.floor_intCast, Int.floor_intCast] at this
  refine ⟨0, 0, by simp [InIntervals, initAt], fun x y hq hb => ?_⟩
  simp only [InIntervals, initAt] at hq
  rw [hc x y (by omega) (by omega), hc 0 0 (by omega) (by omega)] at hb
  simp only [AtLeastAsGood, F.le, decide_eq_true_eq] at hb
  have q1 : x = -1 ∨ x = 0 ∨ x = 1 := by omega
  have q2 : y = -1 ∨ y = 0 ∨ y = 1 := by omega
  clear hq
  revert hb
  rcases q1 with rfl | rfl | rfl <;> rcases q2 with rfl | rfl | rfl <;> decide +kernel

/-- The pixel of row 2 and column 2 of these images, and the pixel of row 3 and column 2 of the images upside down. -/
example : ∃ files rest files' rest',
    Main.main (exWorldBox 0 (fun _ _ => .fin 0) (exNumbers exSlope)) (exUserBoxFull 0 1) = (.rasters files :: rest, none) ∧
    Main.main (exWorldBox 0 (fun _ _ => .fin 0) (exNumbers fun x y => exSlope (5 - x) y)) (exUserBoxFull 0 1) = (.rasters files' :: rest', none) ∧
    files'.row.values 3 2 = F.neg (files.row.values 2 2) ∧ files'.col.values 3 2 = files.col.values 2 2 ∧
      files'.score.values 3 2 = files.score.values 2 2 := by
  obtain ⟨_, _, _, _, cfg⟩ := exUserBoxFull_dicho (fun _ _ => .fin 0) (exNumbers exSlope)
  obtain ⟨_, _, _, _, cfg'⟩ := exUserBoxFull_dicho (fun _ _ => .fin 0) (exNumbers fun x y => exSlope (5 - x) y)
  have ct := exWorldBox_contract 0 (fun _ _ => .fin 0) (exNumbers exSlope)
  have ct' := exWorldBox_contract 0 (fun _ _ => .fin 0) (exNumbers fun x y => exSlope (5 - x) y)
  have h1 := exUserBoxFull_runs 0 (fun _ _ => .fin 0) (exNumbers exSlope) 0 1 (by decide +kernel)
  have h2 := exUserBoxFull_runs 0 (fun _ _ => .fin 0) (exNumbers fun x y => exSlope (5 - x) y) 0 1 (by decide +kernel)
  have mir : ∀ f f' : Nat → Nat → F ℚ, (∀ x < 6, ∀ y < 6, f' (5 - x) y = f x y) → Mirrored true false (exImgSix f) (exImgSix f') := fun f f' h =>
    ⟨rfl, h, fun _ _ _ _ => rfl, fun _ _ _ _ => rfl⟩
  obtain ⟨files, rest, files', rest', left, right, o, o', im, -, key⟩ := C135_mirrored_dichotomy true false _ _ _ _ _ _ _ _ _ _ _ _ _ _ _ _
    _ _ 6 6 _ _ _ _ .nan 0 .min sad 1 (exUserBoxFull_wf 0 1) (exUserBoxFull_wf 0 1) ct.disk ct.pandora ct.keeps rfl ct'.disk ct'.pandora
    ct'.keeps rfl cfg cfg' (by decide) (sumOf_orderFree _) (fun left right left' right' i i' => by
      obtain ⟨rfl, rfl⟩ := exWorldBox_images _ _ _ _ _ i
      obtain ⟨rfl, rfl⟩ := exWorldBox_images _ _ _ _ _ i'
      refine ⟨mir _ _ fun _ _ _ _ => rfl, mir _ _ fun x hx y _ => ?_⟩
      show F.fin (exSlope (5 - (5 - x)) y) = F.fin (exSlope x y)
      rw [show 5 - (5 - x) = x by omega]) (fun left right i => by
      obtain ⟨rfl, rfl⟩ := exWorldBox_images _ _ _ _ _ i
      simp [exImgSix, exLeftImg]) (fun _ _ _ _ z => by simp only [initAt, opposed, if_true]; omega) (fun _ _ _ _ z => by simp [initAt, opposed]) h1 h2
  obtain ⟨rfl, rfl⟩ := exWorldBox_images _ _ _ _ _ im
  exact ⟨files, rest, files', rest', by rw [h1]; exact congrArg (·, none) o, by rw [h2]; exact congrArg (·, none) o',
    key 2 (by decide) 2 (by decide) exSlope_sole exSlope_numbers exSlope_never (fun _ _ _ => ⟨by simp, by simp⟩) (fun _ _ _ => ⟨by simp, by simp⟩)⟩

end Verif.Props
