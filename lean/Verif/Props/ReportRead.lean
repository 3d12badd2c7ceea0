import Verif.Props.ReportFile
import Verif.Props.RunsExactly
import Verif.Props.DichotomyMain
import Verif.Props.FlowMain
import Verif.Props.InterpMain

/-!
# Property C139, continued: no infinity reaches the report, whatever the refinement
-/

set_option linter.unusedSectionVars false

namespace Verif.Props

open Verif Verif.Config Verif.Machine Verif.ImgTools Verif.MatchingCost Verif.Disparity Verif.Estimation Verif.Run Verif.Main Verif.Spec
  Verif.Save Verif.Statistics Verif.ReportFile

section
variable {K : Type} [Field K] [LinearOrder K] [IsStrictOrderedRing K] [FloorRing K]

/-- Two files of the same zone have the same size. -/
theorem ZoneFile.same {β : Type} {f g : File K β} {tr : Option (Affine K)} {rf rl cf cl : Int} {a b : Nat}
    (hf : ZoneFile f tr rf rl cf cl a b) (hg : ZoneFile g tr rf rl cf cl a b) : f.h = g.h ∧ f.w = g.w := by
  have e1 : ∀ i, i < f.h ↔ i < g.h := fun i => (hf.rows i).trans (hg.rows i).symm
  have e2 : ∀ i, i < f.w ↔ i < g.w := fun i => (hf.cols i).trans (hg.cols i).symm
  constructor
  · have := e1 g.h; have := e1 f.h; omega
  · have := e2 g.w; have := e2 f.w; omega

variable {w : World K} {user p0 mc : Fields} {out : List (Written K)} {H W : Nat} {rf rl cf cl : Int} {n : Nat} {me : Measure}
  {pc : Pandora.Cost K}

/-- The rasters of disparities of a successful `main` hold no infinity, whatever the refinement. -/
theorem Stages.noInfinity (s : Stages w user p0 out) (hdisk : DiskContract w H W) (hkeeps : PandoraKeeps w.pandora)
    (hoff : ∀ g v n, g.get "window_size" = some v → IsInt true v n → w.offset (.obj g) = ((n - 1) / 2).toNat)
    (hb : BoundsContract w.run.interp) (hw : user.wf) (hu : user.get "pipeline" = some (.obj p0)) (hz : ZoneIs user H W rf rl cf cl)
    (hne : rf < rl ∧ rl < H ∧ cf < cl ∧ cl < W) (hmc : p0.get "matching_cost" = some (.obj mc)) (hmat : MatcherIs w mc n me pc) :
    NoInfinity s.files.row s.plan.invalid ∧ NoInfinity s.files.col s.plan.invalid := by
  suffices hs : (∀ f ∈ [s.files.row, s.files.col, s.files.score],
      ZoneFile f (w.transform s.leftJ) rf rl cf cl s.plan.cfg.stepRow s.plan.cfg.stepCol) ∧
      ∀ i < s.files.row.h, ∀ j < s.files.row.w,
        (s.files.row.values i j = s.plan.invalid ∨ s.files.row.values i j = .nan ∨ ∃ x, s.files.row.values i j = .fin x) ∧
        (s.files.col.values i j = s.plan.invalid ∨ s.files.col.values i j = .nan ∨ ∃ x, s.files.col.values i j = .fin x) by
    obtain ⟨e1, e2⟩ := ZoneFile.same (hs.1 s.files.row (by simp)) (hs.1 s.files.col (by simp))
    exact ⟨fun i hi j hj => (hs.2 i hi j hj).1, fun i hi j hj => (hs.2 i (e1 ▸ hi) j (e2 ▸ hj)).2⟩
  have hl : rl < H ∧ cl < W := ⟨hne.2.1, hne.2.2.2⟩
  cases href : p0.get "refinement" with
  | none =>
    obtain ⟨_, _, -, -, -, hf, hx⟩ := s.inRange hdisk hw hu hz hl href
    refine ⟨hf, fun i hi j hj => ?_⟩
    rcases hx i hi j hj with ⟨h1, h2, -⟩ | ⟨_, _, h1, h2, -⟩
    · exact ⟨.inl h1, .inl h2⟩
    · exact ⟨.inr (.inr ⟨_, h1⟩), .inr (.inr ⟨_, h2⟩)⟩
  | some v =>
    obtain ⟨f, rfl, hm | hm | hm⟩ := refinement_methods hw hu s.pipeline href
    · obtain ⟨_, _, _, _, _, -, -, -, -, -, -, -, -, hf, hx⟩ := s.refinedInRange hdisk hkeeps hw hu hz hne href hm
      refine ⟨hf, fun i hi j hj => ?_⟩
      rcases hx i hi j hj with ⟨h1, h2⟩ | ⟨_, _, h1, h2, -⟩
      · exact ⟨.inl h1, .inl h2⟩
      · exact ⟨.inr (.inr ⟨_, h1⟩), .inr (.inr ⟨_, h2⟩)⟩
    · obtain ⟨-, _, _, _, _, _, _, _, _, -, -, -, -, -, -, -, hf, -, -, hx⟩ := s.flowWinner hdisk hkeeps hoff hw hu hz hl href hm hmc hmat
      refine ⟨hf, fun i hi j hj => ?_⟩
      obtain ⟨-, _, _, -, -, ⟨h1, h2⟩, -⟩ := hx i hi j hj _ _ rfl rfl
      constructor
      · rcases h1 with h | h | ⟨k, h, -⟩
        · exact .inr (.inl h)
        · exact .inl h
        · exact .inr (.inr ⟨k, h⟩)
      · rcases h2 with h | h | ⟨k, h, -⟩
        · exact .inr (.inl h)
        · exact .inl h
        · exact .inr (.inr ⟨k, h⟩)
    · obtain ⟨-, _, _, _, _, _, _, _, _, _, _, -, -, -, -, hf, -, -, -, -, hx⟩ := s.interpWinner hdisk hkeeps hw hu hz hl href hm hmc hmat hb
      refine ⟨hf, fun i hi j hj => ?_⟩
      obtain ⟨_, _, _, -, -, h⟩ := hx i hi j hj _ _ rfl rfl
      rcases h with ⟨h1, h2⟩ | ⟨y, x, h1, h2, -⟩
      · exact ⟨.inr (.inl h1), .inr (.inl h2)⟩
      · exact ⟨.inr (.inr ⟨_, h1⟩), .inr (.inr ⟨_, h2⟩)⟩

/-- C139 for complete executions: on full images of at least two rows and columns, for every refinement accepted by the checks (or none), the
rasters of disparities hold no infinity, so a reader of standard JSON understands the report exactly when each of the two rasters has a valid
pixel, and finds their statistics. Missing: the executions where nothing is valid (`C139_false`). -/
theorem C139_report_read_partial (w : World K) (user p0 disp mc : Fields) (out : List (Written K)) (H W n : Nat) (invalid : F K) (me : Measure)
    (pc : Pandora.Cost K) (hw : user.wf) (hdisk : DiskContract w H W) (hpan : PandoraContract w) (hkeeps : PandoraKeeps w.pandora)
    (hoff : ∀ g v n, g.get "window_size" = some v → IsInt true v n → w.offset (.obj g) = ((n - 1) / 2).toNat)
    (hb : BoundsContract w.run.interp) (hsq : ∀ x, 0 ≤ x → ∃ s, w.sqrt (.fin x) = .fin s) (hu : user.get "pipeline" = some (.obj p0))
    (hmc : p0.get "matching_cost" = some (.obj mc)) (hmat : MatcherIs w mc n me pc)
    (hd : p0.get "disparity" = some (.obj disp)) (hi : InvalidIs disp invalid) (hroi : user.get "ROI" = none) (hH : 2 ≤ H) (hW : 2 ≤ W)
    (h : Main.main w user = (out, none)) :
    ∃ files row col rest, out = .rasters files :: .report row col :: rest ∧
      (NoInfinity files.row invalid ∧ NoInfinity files.col invalid) ∧
      ((readJson (reportFile row col)).isSome ↔ HasValid files.row invalid ∧ HasValid files.col invalid) ∧
      ∀ D, readJson (reportFile row col) = some D → ReportsFile w.sqrt D "row" files.row invalid ∧ ReportsFile w.sqrt D "col" files.col invalid := by
  obtain ⟨s⟩ := main_stages w user p0 out hw hpan hu ((Fields.get_isSome p0 _).1 (by rw [hd]; rfl)) h
  obtain ⟨disp', n1, n2⟩ := s.reads.disparity
  rw [hd, Option.some.injEq, J.obj.injEq] at n1
  subst n1
  obtain rfl := InvalidIs.unique hi n2
  obtain ⟨f1, f2⟩ := s.noInfinity hdisk hkeeps hoff hb hw hu (.inr ⟨hroi, rfl, rfl, rfl, rfl⟩) (by omega) hmc hmat
  obtain ⟨files, row, col, rest, o, key⟩ := C139_report_file_partial w user p0 disp out _ hw hpan hsq hu hd hi hroi h
  have e := o.symm.trans s.outIs
  rw [List.cons.injEq, Written.rasters.injEq] at e
  rw [← e.1] at f1 f2
  exact ⟨files, row, col, rest, o, ⟨f1, f2⟩, key f1 f2⟩

end

/-- The hypotheses hold for an execution with an optical flow. -/
example := C139_report_read_partial (exWorldOf 1) (exUserWhole 2 1 (some exFlow) (some (.int 0))) _ _ _ _ 5 3 1 .nan _ _ exFlow_wf
  (exWorldOf_contract 1 5 (by decide)).disk (exWorldOf_contract 1 5 (by decide)).pandora (exWorldOf_contract 1 5 (by decide)).keeps
  (exWorldOf_contract 1 5 (by decide)).offset exI_bounds (fun x _ => ⟨x, rfl⟩) rfl rfl ⟨_, _, _, _, _, _, rfl, rfl, rfl, .inl rfl, rfl, rfl⟩ rfl
  (.inl ⟨_, rfl, .inr (.inr (.inl ⟨rfl, rfl⟩))⟩) rfl (by decide) (by decide) exFlow_ok

end Verif.Props
