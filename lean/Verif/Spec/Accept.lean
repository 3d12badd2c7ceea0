import Verif.Spec.Config
import Verif.Spec.Datasets
import Verif.Spec.Machine

/-!
# Specification of the accepted configurations

The values are those read from the file (`convAll`: the strings "NaN", "inf" and "-inf" stand for floats).
-/

namespace Verif.Spec

open Verif Verif.Config

/-- No other key. -/
def OnlyKeys (f : Fields) (ks : List String) : Prop := ∀ k ∈ f.keys, k ∈ ks

/-- A mandatory key. -/
def HasKey (f : Fields) (k : String) (P : J → Prop) : Prop := ∃ v, f.get k = some v ∧ P v

/-- An optional key. -/
def MayKey (f : Fields) (k : String) (P : J → Prop) : Prop := ∀ v, f.get k = some v → P v

/-- An integer with a property. -/
def IntWith (bi : Bool) (P : Int → Prop) (v : J) : Prop := ∃ i, IsInt bi v i ∧ P i

/-! ## Input section -/

/-- An image of the input section, completed. -/
def ImageOk (env : Env) (v : J) : Prop := ∃ f, v = .obj f ∧ OnlyKeys f ["img", "nodata", "mask"] ∧
  HasKey f "img" (fun v => (∃ s, v = .str s) ∧ env.canOpenMandatory v = true) ∧
  HasKey f "nodata" (fun v => (∃ i, IsInt env.boolIsInt v i) ∨ v = .float .nan ∨ v = .float .pinf ∨ v = .float .ninf) ∧
  HasKey f "mask" (fun v => ((∃ s, v = .str s) ∨ v = .null) ∧ env.canOpen v = true)

/-- A disparity of the input section: its initial value and its range. -/
def DispIs (env : Env) (v init : J) (range : Int) : Prop := ∃ f, v = .obj f ∧ OnlyKeys f ["init", "range"] ∧
  f.get "init" = some init ∧ ((∃ i, IsInt env.boolIsInt init i) ∨ env.canOpen init = true) ∧ 0 ≤ range ∧
  HasKey f "range" (fun v => IsInt env.boolIsInt v range)

/-- A constant disparity which does not leave entirely the `n` pixels of its direction (equality accepted, C34). -/
def ConstantInside (n : Nat) (init : J) (range : Int) : Prop := ∃ i, IsInt true init i ∧ |i| - range ≤ n

/-- A grid of disparities: a file with one band, of the size of the image, whose maximum absolute value, if it is a number, does not leave
entirely the `n` pixels of its direction. -/
def GridInside (env : Env) (size : Nat × Nat) (n : Nat) (init : J) (range : Int) : Prop :=
  ∃ s g, init = .str s ∧ env.openGrid s = .ok g ∧ g.count = 1 ∧ g.height = size.1 ∧ g.width = size.2 ∧
    ∀ m, g.maxAbs = some m → |m| - (range : Rat) ≤ (n : Rat)

/-- The completed input section `inp` is correct. With an estimation the disparities are not compared with the image. -/
def InputOk (env : Env) (estimation : Bool) (inp : Fields) : Prop :=
  OnlyKeys inp ["left", "right", "col_disparity", "row_disparity"] ∧ HasKey inp "left" (ImageOk env) ∧ HasKey inp "right" (ImageOk env) ∧
  (∃ rv ri rr cv ci cr, inp.get "row_disparity" = some rv ∧ DispIs env rv ri rr ∧ inp.get "col_disparity" = some cv ∧ DispIs env cv ci cr ∧
    env.checkImages (.obj inp) = none ∧
    (estimation = false → ∃ size, env.imageSize (.obj inp) = .ok size ∧
      ((ConstantInside size.1 ri rr ∧ ConstantInside size.2 ci cr) ∨
        (GridInside env size size.1 ri rr ∧ GridInside env size size.2 ci cr))))

/-- The default disparities with an estimation. -/
def dispDefaults : Fields :=
  .cons "input" (.obj
    (.cons "col_disparity" (.obj (.cons "init" (.int (-9997)) (.cons "range" (.int 2) .nil)))
    (.cons "row_disparity" (.obj (.cons "init" (.int (-9997)) (.cons "range" (.int 2) .nil))) .nil))) .nil

/-- `cfg` is the input section of the user completed with the default values (by Pandora's `update_conf`). -/
def CompletedInput (estimation : Bool) (user cfg : Fields) : Prop :=
  if estimation then ∃ c, updateConf inputDefaults user = .ok c ∧ updateConf dispDefaults c = .ok cfg
  else updateConf inputDefaults user = .ok cfg

/-! ## Steps -/

/-- The disparity step. -/
def DisparityOk (bi : Bool) (v : J) : Prop := ∃ f, v = .obj f ∧ OnlyKeys f ["disparity_method", "invalid_disparity"] ∧
  f.get "disparity_method" = some (.str "wta") ∧
  MayKey f "invalid_disparity" (fun v => (∃ i, IsInt bi v i) ∨ (∃ x, v = .float x) ∨ v = .str "NaN")

/-- The estimation step. -/
def EstimationOk (bi : Bool) (v : J) : Prop := ∃ f, v = .obj f ∧
  OnlyKeys f ["estimation_method", "range_row", "range_col", "sample_factor"] ∧
  f.get "estimation_method" = some (.str "phase_cross_correlation") ∧
  MayKey f "range_row" (IntWith bi fun i => 3 ≤ i ∧ i % 2 = 1) ∧ MayKey f "range_col" (IntWith bi fun i => 3 ≤ i ∧ i % 2 = 1) ∧
  MayKey f "sample_factor" (IntWith bi fun i => i = 1 ∨ (0 < i ∧ i % 10 = 0))

/-- The matching cost step is accepted, with the row and column steps `a` and `b`, and what Pandora gives. -/
def MatchingCostGives {M : Type} (pandora : PandoraMc M) (v a b w subpix spline : J) (m : M) : Prop := ∃ f, v = .obj f ∧
  (∃ s ∈ ["ssd", "sad", "zncc", "mc_cnn"], f.get "matching_cost_method" = some (.str s)) ∧
  (f.get "step" = some (.arr (.cons a (.cons b .nil))) ∨ (f.get "step" = none ∧ a = .int 1 ∧ b = .int 1)) ∧
  AtLeastOne a ∧ AtLeastOne b ∧ pandora (f.set "step" b) = .ok (w, subpix, spline, m)

/-- The filter of a dichotomy. -/
def FilterOk (bi : Bool) (v : J) : Prop := ∃ f, v = .obj f ∧
  ((f.get "method" = some (.str "bicubic") ∧ OnlyKeys f ["method"]) ∨
    (f.get "method" = some (.str "sinc") ∧ OnlyKeys f ["method", "size"] ∧ MayKey f "size" (IntWith bi fun i => 6 ≤ i ∧ i ≤ 21)))

/-- The refinement step, with the window of the matching cost. -/
def RefinementOk (bi : Bool) (v w : J) : Prop := ∃ f, v = .obj f ∧
  ((f.get "refinement_method" = some (.str "dichotomy") ∧ OnlyKeys f ["refinement_method", "iterations", "filter"] ∧
      HasKey f "iterations" (IntWith bi fun i => 0 < i) ∧ HasKey f "filter" (FilterOk bi)) ∨
    (f.get "refinement_method" = some (.str "optical_flow") ∧ OnlyKeys f ["refinement_method", "iterations", "window_size", "step"] ∧
      MayKey f "iterations" (IntWith bi fun i => 0 < i) ∧ IntWith bi (fun i => 3 ≤ i ∧ i % 2 = 1) w) ∨
    (f.get "refinement_method" = some (.str "interpolation") ∧ OnlyKeys f ["refinement_method"]))

/-- What Pandora gives for the window, the subpixel factor and the order of the splines are values, not dictionaries (contract). -/
def GivesLeaves {M : Type} (pandora : PandoraMc M) : Prop := ∀ f w sx sp m, pandora f = .ok (w, sx, sp, m) →
  w.isLeaf = true ∧ sx.isLeaf = true ∧ sp.isLeaf = true

/-- The sections of the steps of a pipeline. -/
def SectionsOk {M : Type} (bi : Bool) (pandora : PandoraMc M) (pl : Fields) : Prop :=
  (∀ v, pl.get "estimation" = some v → EstimationOk bi v.convAll) ∧
  (∀ v, pl.get "matching_cost" = some v → ∃ a b w sx sp m, MatchingCostGives pandora v.convAll a b w sx sp m ∧
    ∀ r, pl.get "refinement" = some r → RefinementOk bi r.convAll w) ∧
  (∀ v, pl.get "disparity" = some v → DisparityOk bi v.convAll)

/-! ## Whole configuration -/

/-- The no-data value of the right image is an integer, or the cost is neither `sad` nor `ssd`. -/
def NodataOk (inp : Fields) (pl : Fields) : Prop :=
  (∃ v i, (J.obj inp).at ["right", "nodata"] = some v ∧ IsInt true v i) ∨
    ∀ s, (J.obj pl).at ["matching_cost", "matching_cost_method"] = some (.str s) → s ≠ "sad" ∧ s ≠ "ssd"

/-- The expert mode is absent, empty, or has a folder for the profiling. -/
def ExpertOk (user : Fields) : Prop :=
  MayKey user "expert_mode" fun v => ∃ e, v = .obj e ∧ (e = .nil ∨ HasKey e "profiling" fun p => ∃ f s, p = .obj f ∧
    OnlyKeys f ["folder_name"] ∧ f.get "folder_name" = some (.str s))

/-- The user asks for an estimation. -/
def AsksEstimation (pl : Fields) : Prop := ∃ v, pl.get "estimation" = some v ∧ v ≠ .null

/-- The configuration of the user is correct. -/
def Acceptable {M : Type} (env : Env) (bi : Bool) (pandora : PandoraMc M) (user : Fields) : Prop :=
  ∃ pl iv inp cfg est, user.get "pipeline" = some (.obj pl) ∧ (est = true ↔ AsksEstimation pl) ∧
    user.get "input" = some iv ∧ CompletedInput est (.cons "input" iv .nil) cfg ∧ cfg.get "input" = some (.obj inp) ∧ InputOk env est inp ∧
    MayKey user "ROI" (RoiOk env.boolIsInt) ∧
    WellFormed pl.keys ∧ SectionsOk bi pandora pl ∧ NodataOk inp pl ∧ ExpertOk user

end Verif.Spec
