# Formal model of CNES/Pandora2D in Lean 4 — design

## 1. Layout

| path | content |
|---|---|
| `lean/Verif/Py/*.lean` | the small part of Python / numpy the code rests on: float special values, slices, `arange`, `array_split`, arg/extrema reductions |
| `lean/Verif/Model/*.lean` | the model of the code, one file per source file, each definition cites the file and lines it models |
| `lean/Verif/Spec/*.lean` | small independent specifications, written without the helpers of the model |
| `lean/Verif/Lemmas/*.lean` | helper lemmas |
| `lean/Verif/Props/*.lean` | the property theorems, each with a non-vacuity `example` or a named witness |
| `MANIFEST.json` | property → theorem names, status |
| `properties.jsonl` | the properties |
| `seeded/LOG.jsonl` | log of the wrong programs: edits of the model made in a scratch copy and the theorems which failed |

## 2. Modelling choices

* **Numbers.** A float is a value of `F K`: `nan | ninf | fin k | pinf` over an arbitrary linearly ordered field `K`
  (instances: ℚ, ℝ). Special values follow IEEE/numpy (comparisons with NaN are false, `max`/`min` propagate NaN,
  arithmetic propagates NaN). Finite arithmetic is exact: **rounding is not modelled** (float32/float64 casts are
  identities). Theorems about positions are unaffected since the positions of the code are dyadic rationals
  (C91: the disparities of the rasters are float32).
* **Arrays.** An array is a record of sizes plus a total `get` function; theorems speak only of in-range indices.
  Where the Python code would raise `IndexError`, the model returns an error value. In-place writes become functions
  returning the new array; where aliasing matters (views in `compute_disp_maps`, `attrs` in `save_dataset`) the model
  carries the aliased object explicitly.
* **Exceptions** are values (`Except Err α`). Error branches are part of the model and have theorems.
* **External libraries** (Pandora 1.6.2, numpy, scipy, xarray, rasterio, affine, transitions, skimage, json_checker) are
  either modelled by a definition implementing their documented behaviour (numpy slices, `array_split`, `argmax`, …) or
  kept as a parameter with a recorded contract (section 5).
* **Concurrency.** The profiling decorator and its monitoring thread are a transition system with an arbitrary scheduler.
* **Whole executions.** `Model/Main` links the models of the sections, of the machine, of the datasets, of the run and of the files. What
  comes from the disk or from Pandora is a record `World`; the theorems assume `DiskContract` (sizes of what is read) and
  `PandoraContract` (subpixel factor at least one, costs finite or NaN). Simplifications: all the steps are constructed before the first one
  runs (the code constructs each one when it runs; both raise before anything is written); a row step which is not an integer is out of
  the model of `main`; the values of the disparity grids are integers; an `expert_mode` which is not a dictionary is one error value; the
  coordinate system and the transform are functions of the section of the left image; an execution which fails writes nothing, because the
  code only writes after the run.
* **Sizes** are never bounded. Concrete sizes appear only in `example`s and in the witnesses of negations.

## 3. What is modelled, what is not

| source | modelled | not modelled |
|---|---|---|
| `disparity/disparity.py` | whole class: splits, reductions, margins, masking, restoration, configuration check | logging |
| `common.py` | `save_dataset`, georeferencing, masking of the disparity ranges, dataset of the maps | writing of the TIFF files (a `File` record) |
| `img_tools.py` (ranges, shifts) | disparity ranges of the two images, ROI processing, row shift, subpixel shift, removal of the ROI margins | reading of the images by Pandora/rasterio |
| `matching_cost/matching_cost.py` | coordinates, margins, loop over the row disparities, masking, configuration check | the cost functions of Pandora (parameter, or `windowCost`) |
| `criteria.py`, `constants.py` | whole files | scipy's dilation (definition `dilated`) |
| `state_machine.py` | tables, check, run, callbacks as an arbitrary `Exec`, check callbacks exactly | logging, graphs |
| `check_configuration.py` | every section check used by `check_conf` | error texts |
| `estimation/*` | rounding, sign, update of the configuration | the correlation (parameter) |
| `interpolation_filter/*` | whole files, bicubic and cardinal sine | – |
| `refinement/dichotomy.py` | whole class | logging |
| `refinement/optical_flow.py` | whole class | `np.linalg.lstsq`, `map_coordinates` (parameters) |
| `refinement/interpolation.py` | whole class | `scipy.interpolate`, `scipy.optimize` (parameters) |
| `reporting.py`, `__init__.py` 130-132 | statistics and report of the disparities; `Model/ReportFile`: the text of `report.json` | white space, digits of the numbers |
| `profiling.py` | decorator, monitoring thread, CSV lines, values shown by the summary | drawing of the figures, time and RAM readings |
| `statistics.py`, `schema.py` | whole files | – |
| `__init__.py` (`run`), `state_machine.py` callbacks | `Model/Run`: data attributes of the machine, callbacks of the steps, `run` | logging |
| `__init__.py` (`main`) | `Model/Main`: check, ROI margins, datasets, construction of the steps, run, files, report, saved configuration; `Model/ConfigFile`: reading and writing of the JSON files as lists of tokens | command line, plugins, `setup_logging`, failures of the disk when writing |
| `img_tools.py` (datasets), `check_datasets` | `Model/Datasets`: disparity checks, creation of the two datasets | attributes of the datasets other than the ones used |

## 4. Trusted base

* Lean 4.33.0 kernel; axioms `propext`, `Classical.choice`, `Quot.sound` only, listed per theorem in section 8.
* No `sorry`, no `native_decide`, no `bv_decide`, no axiom added.
* The reading of the code: the model is hand written from the sources; the code is not run.
* Contracts of external code listed in section 5.

## 5. External contracts (assumed, not proved)

**Python and numpy.** Slices with negative and out-of-range bounds; `np.array_split` at given indices; `argmax`/`argmin` return the
first extremum; `np.nanargmin`/`nanargmax` replace NaN by the worst infinity and raise on all-NaN; boolean mask of another shape raises
IndexError; in-place broadcast mismatch raises ValueError; a float slice bound raises TypeError; `round` is half to even, and of an
infinity or NaN raises (one error value for both exceptions); the set of several NaN keeps them distinct; `np.sinc(0) = 1`;
`np.empty_like` is arbitrary; `np.gradient` is the centred difference inside and one-sided at the ends; `np.stack` of an empty list
raises; `np.searchsorted`; `np.interp` with repeated abscissas uses the last point; `np.nanquantile` is linear; `np.isin` never matches
NaN; the square root is a parameter; `np.nditer` is row-major; `enum.auto` in a `Flag` gives the next power of two.

**numpy.linalg.** `lstsq` is a parameter; `LeastSquares` (minimum-norm least squares) where a theorem needs it, shown satisfiable.

**scipy.** `shift` by an integer is exact; `zoom` of factor s gives at output k the position k/s (order 1, `zoomLinear`, when values
matter; arbitrary otherwise); `binary_dilation` by a square; `interp2d` (`InterpContract`) and `minimize` (`BoundsContract`);
`map_coordinates` arbitrary.

**xarray.** Vectorised `sel` is pointwise and raises KeyError for an absent label; label slices are inclusive; assigning `attrs` copies
the dictionary; coordinates are the arrays given.

**Pandora.** `get_min_max_from_grid`; `get_disparity_range`; `get_coordinates` starts at `c0 + margin % step`;
`compute_cost_volume` followed by `cv_masked` is a parameter `Cost` with `CostContract` (the value depends on the two images, the
ranges, the point and the disparity; nothing outside the image). `windowCost` is the idealisation of the window measures (window
kernel; NaN when the window leaves an image, meets no-data or an invalid centre, or the disparity leaves the range; linear
interpolation of the columns), shown to meet the contract. `offset_row_col` is half of the window. `GlobalMargins`; `concat_conf`;
`update_conf` (deep merge); `rasterio_can_open` accepts None; `check_images` and image metadata are parameters; `PandoraStable`: the
Pandora check of its own output changes nothing; reading with a ROI gives the crop (`CropOf`) with the metadata of the full image for
the transform. `DiskContract`: images have the size of the check, a ROI gives the crop with its margins limited by the image.
`CropsWhole` (C90): the pixels read in a region are those of the whole image. `PandoraContract`: subpixel factor at least one, costs finite
or NaN. `PandoraKeeps`: window, subpixel factor and spline order are integers,
the subpixel factor is a power of two, the same values are chosen again when given back. `RunContract` (C81): the three previous ones,
accepted images can be read, `check_dataset` accepts what was read, `offset_row_col` is half of the window, and the contracts of the
interpolation and of the filters. Each is shown satisfiable by a concrete world (`exWorld_disk`, `exWorld_pandora`, `exWorldOf_contract`).

**rasterio / affine.** The product and the action of affine maps.

**json_checker.** Schemas are predicates; whether a Boolean counts as an integer is a parameter `bi`; `np.isnan` of a list rejects.

**transitions.** A trigger looks for the first transition with its name and the current state; no match raises MachineError; `before`
callbacks run before the change of state and an exception in them leaves the state unchanged; `add_transitions`/`remove_transition`
edit the list.

**multiprocessing.** `Pool.map` preserves order and works on copies; a `Pipe` is two FIFO queues; `poll` returns True as soon as a
message is present and False only after the time-out with none.

**pandas.** `groupby` sorts the names, `mean` and `sum` skip the missing values, `describe` is linear.

**scikit-image.** `phase_cross_correlation` is a parameter (any pair of shifts).

## 6. Disagreements between code and properties

Each has a theorem with a concrete witness, and a `_partial` theorem for the part which holds.

* C05, C43, C45: with tied costs the row and the column are chosen separately; the pair may not be a best one.
* C09: a step and a variable grid always raise IndexError; hand-made ranges of different widths select disparities out of range.
* C15, C58: the row shift rebuilds the mask of the right image from the no-data value and loses the invalid pixels.
* C20: the ROI margins are the maximum of the disparities and of the previous margins, not their sum: costs are lost near the ROI edge.
* C22: saving twice without ROI and with a step moves the georeferencing.
* C24, C26, C27: the criteria are wrong or raise when the step is larger than one.
* C30: a dotted step name is refused at check.
* C32, C33: a machine used after a refused pipeline, or twice, misbehaves.
* C34, C35: a range starting exactly at the image size is accepted, a grid with one pixel far outside is refused; with an estimation nothing is checked.
* C37: the optical flow window size given by the user is overwritten; some values are converted or capped.
* C44: the score of an invalid pixel becomes NaN.
* C49: a NaN in the window spoils an exact sample.
* C52, C61: with a ROI whose first coordinate is not the first pixel the optical flow uses the range of another pixel; the dichotomy
  always raises when the step skips pixels.
* C54, C67: the interpolation writes NaN instead of the invalid value, uses the margins as range, and loses the sign of the score.
* C55: NaN are counted as valid when the invalid value is not NaN.
* C56 (values): a late ready message is taken for the memory.
* C59, C60: the ROI is not enlarged by the estimated disparities; a completed configuration is refused.
* C63, C64, C66: the optical flow forgets the fractional part of its start, accepts an invalid value inside the range, and exchanges the
  two steps in its margins.
* C71: an accepted pipeline without disparity step returns the maps of the previous run of the machine.
* C73: a row step which is a float, `True` or infinite is accepted.
* C75: an image of one row or one column with disparity grids is accepted, then its dataset cannot be created.
* C80: with a ROI the report is computed on the maps with the margins, `save_dataset` removes them from a local copy only: the reported
  statistics are not those of the rasters.
* C81: accepted configurations which raise when they run: dichotomy with a step other than one, grids of disparities with a step other
  than one, estimation with a ROI and null initial disparities, optical flow with a window larger than the image, or with a ROI and a
  step other than one.
* C84, C85: the boxes of the profiling summary are those of the two numbers mean and sum; the lines of an execution which failed are counted
  in the summary of the next one of the process.
* C90: the margins of the region are the maximum of the disparities and of the half window: at the border of a region the rasters may be
  invalid where the execution on the full images finds a translation.
* C103: the pixels of the right image which the user declares invalid still get disparities, the row shift forgets them.
* C108: with ties the smallest disparity is taken in both of two mirrored executions.
* C112, C118: with fractions of pixels the rows are interpolated from the no-data values, which are then only compared with them: the scores
  depend on the no-data value, and rows and columns do not play the same role.
* C117, C133, C136, C145: the margins of C90 again, seen by two regions of the same images, also with a dichotomy, an optical flow or an interpolation.
* C148: an interpolation fills the missing costs of a pixel by `np.interp` on the indices of the rows only, so exchanging the rows and the columns of the images does not exchange the disparities (`refinement/interpolation.py:113`).
* C150: a missing cost of the interpolation takes the last known cost of its row, so mirroring the images left to right changes it (`refinement/interpolation.py:113`).
* C134: the first best move of a dichotomy is taken by rows and then by columns: exchanging the axes may change the result.
* C138: when two pairs reach the score, the window of the optical flow may hold no-data values, which change the refined disparities.
* C152: a refined disparity at the end of its interval is lost (`refinement/optical_flow.py:432`), so no-data values which remove the best pair of a pixel may give it a refined disparity.
* C153: with grids, the costs between the interval of a pixel and the smallest or greatest disparity of all the pixels are masked but those of the margins, beyond them, are not (`matching_cost/matching_cost.py:410`); larger intervals may remove the only cost of a pixel.
* C154: an interpolation reads the costs of the margins (`refinement/interpolation.py:144`), so a pixel none of whose pairs can be compared may get a disparity from them. An optical flow refuses the disparities which are not strictly inside the interval (`refinement/optical_flow.py`), so a pixel whose best pair is at an end may have a score and no disparity.
* C155: an optical flow only refines the pixels which have computed points on each side, half a window away (`refinement/optical_flow.py`); with larger steps the last computed rows or columns have none, and are invalid although the image goes on after them.
* C158: the interpolation starts its minimisation from the disparities of the map (`refinement/interpolation.py` 91), which hold the invalid value where no pair of the intervals has a cost; when the margins of the refinement hold a cost, that value is used as a start and the result depends on it.
* C159: the optical flow takes a disparity equal to the invalid value for a missing one (`refinement/optical_flow.py` 168-169) and compares the window of the left image with the window at the same place; with an invalid value inside the interval the refined disparity is wrong.
* C160: the dichotomy takes a disparity equal to the invalid value for a missing one (`refinement/dichotomy.py` 122-138): with an invalid value inside the interval the pixel is not refined and its score becomes NaN.
* C139: when no pixel is valid the statistics are NaN, which `json.dump` writes as the word `NaN`: the report is not a standard JSON text.
* C149: with `"invalid_disparity": "NaN"` or `"nodata": "NaN"` the saved configuration holds the word `NaN`: `config.json` is not a standard JSON text.
* C140: with grids of disparities, a disparity which is in the intervals of other pixels only has no cost; the filter of a dichotomy then misses samples, and enlarging the intervals changes a pixel whose best pair was inside.

## 7. Property by property

For each property: what is modelled and how it is proved; the status; the theorems (all in the namespace `Verif.Props`).

### C01 WTA result does not depend on the memory-saving split

`extrema_split`, `get_score`, `arg_split` with `array_split` and block writes. The result equals the unsplit reduction at every in-range index, by induction on the list of chunks (invariant: the written region is the processed prefix).

Status: **proved**. every image size; the split points of the code and any other sorted ones

Theorems: `C01_extrema_split_col`, `C01_extrema_split_row`, `C01_get_score`, `C01_arg_split`, `C01_any_split`, `C01_pixel_alone`, `C01_as_single_pixels`

### C02 Score map holds the best candidate cost

`compute_disp_maps` refined to the multiset of the candidates of a pixel: the score is a member and no member is better.

Status: **proved**. 

Theorems: `C02_score_is_best`, `empty_range_raises`, `maps_exist`

### C03 A pixel is invalid exactly when it has no candidate, in all three maps at once

Same model; the three maps are compared with "no candidate in the user window".

Status: **proved**. 

Theorems: `C03_invalid_iff_no_candidate`, `C03_invalid_iff`

### C04 Disparity margins are trimmed exactly

Arithmetic of the Python slice with scaled margins, including the `0 → -size` replacement, for every sign and size.

Status: **proved**. 

Theorems: `C04_col_range_exact`, `C04_row_range_exact`, `C04_margins_never_selected`, `C04_after_matching_cost`

### C05 The reported (row, column) disparity pair is the match whose cost is the reported score

Same model as C02; the negation is a 2x2 witness; the positive part needs uniqueness of the optimum.

Status: **partial**. false of the code in general: rows and columns are reduced separately, so with ties the pair (row, col) may not attain the score. Negation proved with a witness; exact condition proved.

Theorems: `C05_false_with_ties`, `C05_pair_attains_score_partial`, `C05_unique_best_partial`

### C06 Ties are broken towards the lowest disparity, per axis

Least index over the list of disparities which attain the score.

Status: **proved**. 

Theorems: `C06_lowest_disparity`

### C07 Disparity computation leaves the cost volumes untouched

The volume is a store seen through a view; write-then-restore is the identity on the store.

Status: **proved**. 

Theorems: `C07_cost_volumes_unchanged`

### C08 Per-pixel disparity range masking is exact

Pointwise model of boolean-mask writes, one disparity after the other, by induction on the disparities.

Status: **proved**. 

Theorems: `C08_row_masking_exact`, `C08_col_masking_exact`, `C08_row_masking_index_error`

### C09 The chosen disparities respect each pixel's own range

Composition of C08, C02 and C03 with the construction of the grids (C10).

Status: **proved**. holds whenever the volumes are computed from configured disparities, any step. With a step that skips pixels and a variable grid the code always raises IndexError (proved). For hand-made ranges of different widths the property is false (witness).

Theorems: `C09_configured_range`, `C09_own_range`, `C09_variable_ranges_with_step_raise`, `C09_false_for_other_widths`

### C10 Left and right disparity ranges are opposite

Integer and grid model of `get_min_max_disp_from_dicts`.

Status: **proved**. error branch: a grid crop of one row or one column raises

Theorems: `C10_right_range_opposite`, `C10_left_range_centred`, `single_row_or_col_grid_raises`

### C11 The recorded global disparity interval is the tight hull of the grid

Minimum and maximum of the list of values of the grids.

Status: **proved**. 

Theorems: `C11_source_is_tight_hull`

### C12 Subpixel row disparities are decomposed exactly

Floor and fractional part in an ordered field.

Status: **proved**. linear zoom (order 1) idealised; exact arithmetic

Theorems: `C12_decomposition`, `C12_sampled_at_label`

### C13 The row disparity axis is the full requested lattice

Contract of the Pandora disparity range, multiples of 1/subpix.

Status: **proved**. 

Theorems: `C13_axes_full_lattice`

### C14 Row shift addresses row r + d or no-data

Pointwise model of `shift`.

Status: **proved**. 

Theorems: `C14_row_shift`

### C15 The right image's validity mask survives the row shift

Same model; the witness is a one-pixel image whose mask is lost.

Status: **partial**. false of the code: the mask of the right image is rebuilt from the no-data value, an invalid pixel of the input mask is lost. Negation proved; no-data part proved.

Theorems: `C15_false_mask_lost`, `C15_nodata_stays_invalid_partial`

### C16 Cost volume cells carry the cost of the displaced pair

Loop over the row disparities with Pandora's cost as a parameter; the cell equation is proved by induction on the slabs.

Status: **proved**. Pandora cost is a parameter with a recorded contract

Theorems: `C16_cell_any_step`, `C16_cell_own_range`, `C16_cell_step_one`, `C16_cell_constant`, `C16_nan_when_outside`, `volumes_exist_step_one`, `volumes_exist_constant`, `windowCost_contract`

### C17 Computed coordinates follow the step and contain the ROI origin

`arange` and the contract of `get_coordinates`.

Status: **proved**. 

Theorems: `C17_coordinates_without_roi`, `C17_coordinates_with_roi`

### C18 ROI processing margins cover the disparity range

Integer model of `get_roi_processing`.

Status: **proved**. 

Theorems: `C18_margins_cover_disparities`, `C18_idempotent`, `C18_mixed_raises`, `C18_window_not_covered`

### C19 ROI results are returned on the ROI only and entirely

Integer model of `remove_roi_margins`; needs the congruence guaranteed by C17.

Status: **proved**. 

Theorems: `C19_roi_exactly`, `C19_after_matching_cost`

### C20 A ROI run gives the same candidates as a full run

Composition of the ROI crop, C16 and `windowCost` for the full image and the crop; `slab_crop` compares the two windows.

Status: **partial**. Every cost of the ROI run equals the cost of the full run at the same coordinates and pair; equality including missing costs when the margins cover the displaced window. The statement without that condition is false (C20_false). Costs follow the windowCost idealisation; sub-pixel data by linear column interpolation.

Theorems: `C20_same_cost_partial`, `C20_roi_cost_is_full_cost`, `C20_false`

### C21 Saved georeferencing points at the right ground location

Affine maps over a field.

Status: **proved**. rasterio affine product is the recorded contract

Theorems: `C21_without_roi`, `C21_with_roi`, `C21_coordinates_without_roi`, `C21_roi_without_step_raises`

### C22 Saving does not change the dataset

Two successive saves of a mutable dataset.

Status: **partial**. false of the code: the stored transform is overwritten when the configuration has no ROI, a second save moves the output. Negation and the exact drift proved; unchanged dataset proved for the other cases.

Theorems: `C22_false_without_roi`, `C22_repeated_saves_without_roi`, `C22_unchanged_partial`

### C23 Criteria flags are independent bits

Bits as powers of two; decoding by `testBit`.

Status: **proved**. any list of flags, any order, repetitions

Theorems: `C23_decode`, `C23_valid_iff_empty`, `C23_injective`

### C24 A cell is VALID exactly when no criterion applies

Pointwise model of the whole criteria array; exact list of flags in each cell.

Status: **partial**. exact value of every cell for a step of one (integer disparities when the right image has a mask); with a left mask and a larger step IndexError is raised, with a right mask and a subpixel factor TypeError is raised; without masks and with a step the border and outside flags are wrong (C26, C27)

Theorems: `C24_cells_exact_partial`, `C24_valid_iff_partial`, `C24_left_mask_with_step_raises`, `C24_after_matching_cost_partial`

### C25 Right-image criteria are read at the displaced pixel

Slices of the mask and of the array for every sign of the disparity, by induction on the pairs of disparities.

Status: **proved**. any mask, any integer disparities; float disparities raise TypeError

Theorems: `C25_displaced`, `C25_subpixel_raises`

### C26 Left border flag marks exactly the border points

Pointwise model of the border slices.

Status: **partial**. false of the code when the step is larger than one, proved for a step of one

Theorems: `C26_false_with_step`, `C26_border_exact_partial`

### C27 Disparities leaving the right image are flagged

Pointwise model with the transpositions of the code.

Status: **partial**. false of the code when the step is larger than one, proved for a step of one and any subpixel factor; maskOutside_spec gives what the code does for any step

Theorems: `maskOutside_spec`, `C27_false_with_step`, `C27_outside_exact_partial`

### C28 Only well-formed pipelines are accepted

Executable model of the `transitions` machine; induction over the sequence of steps, simulation by a small grammar.

Status: **proved**. any sequence of any names, any behaviour of the steps; transitions library semantics is the recorded contract

Theorems: `C28_check_iff`, `C28_run_iff`

### C29 A pipeline that passes the check also runs

Simulation between the check table and the run table.

Status: **proved**. 

Theorems: `C29_checked_pipeline_runs`

### C30 Repeated steps with a suffix

`split(".")[0]`; the check looks up the whole name.

Status: **partial**. false at check: every dotted name is refused; true at run

Theorems: `C30_check_rejects_suffix`, `C30_false_at_check`, `C30_run_partial`

### C31 The machine comes back to its initial state

Invariant over any history.

Status: **proved**. any history of successful checks and runs

Theorems: `C31_back_to_initial`

### C32 A rejected pipeline does not poison the machine

The machine after a failed check; the failure is permanent by an invariant.

Status: **partial**. false of the code: after a pipeline refused at its second step or later the machine refuses every pipeline. Negation, permanence of the failure, and the true part (refusal at the first step) proved.

Theorems: `C32_false`, `C32_poisoned_forever`, `C32_refused_at_first_step_partial`, `C32_run_after_refusal`

### C33 The checked configuration describes the checked pipeline only

The attributes of the machine are a store which is never emptied.

Status: **partial**. false of a machine used twice: the steps of the first pipeline are added to the second; proved for a new machine

Theorems: `C33_new_machine_partial`, `C33_stale_steps_are_kept`, `C33_false_on_reuse`

### C34 Disparity ranges outside the image are rejected

Integer inequalities; grids by their hull.

Status: **partial**. False as stated: a column interval starting exactly at the image width is accepted although no candidate exists (C34_false_at_size); a grid is checked by its largest absolute value only, so that one pixel far outside rejects a grid whose other pixels have candidates (C34_grid_outlier). Proved for constant disparities: accepted exactly when both intervals have candidates, except at the equality |init| - range = size.

Theorems: `C34_false_at_size`, `C34_constant_partial`, `C34_grid_outlier`

### C35 Disparity inputs must be given in pairs of one kind

Schemas as predicates over a JSON value type.

Status: **partial**. Accepted configurations without estimation give the two disparities of the same kind; with estimation the check is skipped and anything passes.

Theorems: `C35_pairs_partial`, `C35_mixed_raises`, `C35_false_with_estimation`

### C36 ROI sections are coherent

Same; exact characterisation.

Status: **proved**. Exact characterisation of the accepted ROI sections, Booleans-as-integers being a parameter.

Theorems: `C36_accepted_iff`, `C36_no_roi`

### C37 User values are never overridden by defaults

Deep merge of the dictionaries, by mutual structural induction on JSON values. For the whole check, the section returned for each step is the merge of the user's section with its checked version; it is computed key by key (the checked version only adds or replaces leaves).

Status: **partial**. Every user value is kept except: an empty dictionary given where a default is not a dictionary, 'NaN'/'inf' strings converted, capped iterations, and the optical flow window size, which is overwritten.

Theorems: `C37_input_values_partial`, `C37_input_defaults`, `C37_false_empty_dictionary`, `C37_estimation_values`, `C37_disparity_values`, `C37_dichotomy_values`, `C37_matching_cost_values`, `C37_optical_flow_overwrites`, `C37_pipeline_sections`

### C38 Checking a checked configuration changes nothing

Each step-level check applied to its own output.

Status: **proved**. Section by section (C94 for whole configurations); the matching cost uses the contract PandoraStable for the Pandora part.

Theorems: `C38_disparity`, `C38_estimation`, `C38_refinement`, `C38_matching_cost`, `C38_input_section`, `C38_input_section_estimation`, `C38_roi_section`

### C39 The estimated search range contains the estimated shift

Rounding half to even on ordered fields with floor.

Status: **proved**. The correlation (scikit-image) is a parameter: every pair of shifts.

Theorems: `C39_search_range`, `C39_shift_inside`, `estimation_range`, `C39_configuration`, `C39_nan_raises`

### C40 Dichotomy moves by less than one input step

Executable model of the dichotomy with an arbitrary filter; the bound by induction on the list of precisions.

Status: **proved**. Every filter, cost volume, number of iterations and subpixel factor 2^k.

Theorems: `C40_displacement`, `C40_less_than_one_step`, `C40_unchanged`

### C41 Dichotomy results are on the expected lattice

Same induction, multiples of the precision.

Status: **proved**. 

Theorems: `C41_lattice`

### C42 Dichotomy stays inside the searched range

C40 with the end-of-range test, and composition with the disparity step.

Status: **proved**. C46_pipeline is the composition with the matching cost and disparity steps.

Theorems: `C42_stays_in_range`, `C46_pipeline`

### C43 Dichotomy never degrades the cost

Same induction, invariant "the value of the point is not worse".

Status: **partial**. False as stated: the score of the disparity step is replaced by the cost at the returned pair, which may be worse with ties, and becomes NaN when the invalid value is a disparity of the range. Proved with respect to the cost at the initial disparities, for all filters and iterations.

Theorems: `C43_not_worse_partial`, `C43_false_ties`, `C43_false_invalid_in_range`

### C44 Dichotomy leaves invalid and edge pixels alone

Branches of `refinePixel` and of `costValue`.

Status: **partial**. The disparities are kept; the score of an invalid pixel becomes NaN instead of the invalid value.

Theorems: `C44_disparities_kept_partial`, `C44_score_kept_partial`, `C44_false_score`

### C45 Dichotomy does not move without improvement

Specification of `nanargmin` on the nine candidates.

Status: **partial**. False with ties which are not all equal: the first index is taken. Proved when the other candidates are NaN or strictly worse, and when all are equal; search_selects: the selected candidate is never improved by another.

Theorems: `search_selects`, `C45_no_move_partial`, `C45_flat_partial`, `C45_false_ties`

### C46 Resampling windows stay inside the cost surface

C42 plus the slice arithmetic of the window; composed with the matching cost and the disparity steps.

Status: **proved**. Both filters; at most nine iterations for the cardinal sine (cap of the configuration).

Theorems: `C46_windows_inside`, `C46_never_raises`, `C46_pipeline`, `C46_bicubic_fits`, `C46_sinc_fits`, `bicubic_has_coeffs`, `sinc_has_coeffs`

### C47 Bicubic filter partitions unity, interpolates and is exact on quadratics

Polynomial identities.

Status: **proved**. Exact arithmetic.

Theorems: `C47_sum_one`, `C47_impulse`, `C47_mirror`, `C47_quadratic_1d`, `C47_exact_on_biquadratics`

### C48 Cardinal sine filter partitions unity and interpolates

Real analysis (`Real.sin`), normalisation and positivity of the sum.

Status: **proved**. Over the real numbers, every half size.

Theorems: `C48_well_defined`, `C48_sum_one`, `C48_impulse`, `C48_row_of_table`, `C48_row_rounds_up`, `C48_constant`

### C49 Interpolation is exact at integer positions

From C47, C48 and the slice model.

Status: **partial**. False when another sample of the window is NaN; proved on finite windows for both filters.

Theorems: `C49_integer_positions_partial`, `C49_one_value_per_position`, `C49_false_with_nan`, `bicubic_impulse`, `C49_sinc_impulse`

### C50 Optical flow maps keep the shape and alignment of their input

Index arithmetic of the windows, of the reshape and of the padding.

Status: **proved**. Every regular grid of coordinates, window, image, solver, resampling; the unknown content of np.empty_like is a parameter. When no window fits the refinement raises.

Theorems: `C50_aligned`, `C50_total`, `C50_small_raises`

### C51 Optical flow displacement is bounded by the number of iterations

Induction over the iterations with an arbitrary flow solver.

Status: **partial**. With a solver which gives no NaN (C51_bounded), or up to NaN without this hypothesis; a value out of the range is replaced by the invalid value.

Theorems: `C51_bounded`, `C51_bounded_partial`, `C51_trajectory`

### C52 Optical flow results are inside the range or invalid

Pointwise model of the final test; step and ROI arithmetic.

Status: **partial**. False as stated: a pixel may be invalid in one map only, NaN of the solver are kept, and with a region of interest whose first coordinate is not the first pixel the range of another pixel is used. Proved one map at a time, up to NaN, when the first coordinate is the first pixel. In an execution of main the range of another pixel is never used: with variable grids and steps the run raises before (C96, subsampled_range).

Theorems: `C52_inside_partial`, `C52_pipeline_partial`, `C52_one_map_only`, `C52_nan_kept`, `C52_other_range`, `C52_other_range_fails`

### C53 Interpolation refinement assigns each result to its own pixel

Rollaxis and reshape index arithmetic. The missing costs are specified exactly by `RowFilled`: `np.interp` between the row numbers of the known cells, taken row by row.

Status: **proved**. C53_total under the contract InterpContract of interp2d (accepts matrices of the size of its axes), which exI_interp shows satisfiable.

Theorems: `C53_own_surface`, `C53_minimised`, `C53_total`

### C54 Interpolation refinement keeps invalid pixels invalid

Bounds contract of the minimiser.

Status: **partial**. False as stated (C54_false): NaN is written instead of the invalid value, the bounds of the minimisation include the margins of the refinement, and an invalid pixel with costs in the margins receives a disparity. Proved: NaN where there is no cost, otherwise a disparity between the first and the last ones of the volumes (contract BoundsContract of minimize, satisfiable by exI_bounds).

Theorems: `C54_partial`, `C54_no_cost_gives_nan`, `C54_false`, `C54_invalid_lost`, `C54_outside_range`, `C54_invalid_refined`

### C55 Statistics describe the valid pixels

Finite sums and sorted lists; permutation invariance.

Status: **partial**. Mean, deviation, quantiles and independence of the order are proved for every map; the ratio is right only when the map has no NaN or the invalid value is NaN (C55_nan_counted shows the failure). Infinite cells are excluded from the value theorems.

Theorems: `C55_mean`, `C55_std`, `C55_quantiles`, `C55_quantiles_ordered`, `C55_nothing_valid`, `C55_order`, `C55_ratio_range`, `C55_ratio_partial`, `C55_nan_counted`

### C56 Profiling does not alter results

Transition system of the wrapper and of the thread, arbitrary scheduler; inductive invariant on the queues. Lines of nested calls by mutual induction on the tree of calls. Real time is not modelled.

Status: **proved**. Any schedule of the two threads. Observed besides the claim: when the ready message comes after the time-out, the line holds 0 as memory and the memory as CPU (C56_values_false).

Theorems: `C56_result`, `C56_once`, `C56_no_deadlock`, `C56_lines`, `C56_count`, `C56_maxima`, `C56_exception_leaves_thread`, `C56_late_values`, `C56_values_false`

### C57 A pure translation is recovered

Composition of C16, C02 and C03 with a window measure whose value on equal windows cannot be beaten (translation_value); for zncc, Cauchy-Schwarz on the centred windows.

Status: **proved**. Measures zero on equal windows and never negative (sad and ssd are), or one on equal windows which are not constant and never above one (zncc is, with an exact square root).

Theorems: `C57_translation`, `sad_dissimilarity`, `ssd_dissimilarity`, `C57_example`, `C57_translation_similarity`, `zncc_similarity`, `C57_example_zncc`

### C58 Criteria and costs agree

C24 and C16 with `windowCost`: the two conditions are compared.

Status: **partial**. Proved when the right mask is the one the criteria use; false in general: the mask of the right image is lost by the row shift (C58_false).

Theorems: `C58_valid_iff_cost_partial`, `C58_false`

### C59 ROI margins cover the estimated disparities

C18 applied to the placeholder disparities, C39 for the estimated ones.

Status: **partial**. False: the margins come from the disparities of the input section, not from the estimated ones. Proved for the placeholder disparities and displacements below 9994 pixels.

Theorems: `C59_false`, `C59_placeholder_partial`

### C60 A completed configuration can be used again

The output of the checks and of the estimation given to the checks. On whole executions (Main.main): the saved configuration is the checked one with the margins when there is neither ROI nor estimation, and is accepted (C94, C95); otherwise it holds keys which the schemas refuse (C60_saved_partial, an equivalence). C60_saved_false: a ROI with a dichotomy.

Status: **partial**. Proved: without ROI and estimation the configuration saved by an execution is accepted by the checks, and only then. False of the code for every configuration with an estimation or a ROI. Same contract PandoraKeeps as C94.

Theorems: `C60_saved_partial`, `C60_saved_false`, `C60_false`, `C60_never_accepted_again`, `C60_roi_margins`

### C61 Refinement works with every accepted step

Composition of the coordinates of C17 with the shapes required by the refinements.

Status: **partial**. False of the code: the dichotomy always raises when the step skips rows or columns; the positive part for a step of one is C46_pipeline. The optical flow works for every step when the first coordinate is the first pixel (always without ROI); with a ROI it raises when the number of points changes.

Theorems: `C61_flow_partial`, `C61_flow_raises_with_roi`, `C61_other_shape_raises`, `C61_dichotomy_raises_with_step`, `C61_step_one_partial`

### C62 Refined maps agree with each other

Invariant of the dichotomy: value of the point = filter at the position.

Status: **proved**. 

Theorems: `C62_score_at_refined_disparities`

### C63 Optical flow is relative to the window it compared

Zero motion on equal windows; integer part of the disparity.

Status: **partial**. Proved for integer disparities; false for subpixel disparities: the window is taken at the integer part but the motion is subtracted from the whole disparity.

Theorems: `C63_exact_match_partial`, `C63_subpixel_biased`

### C64 Optical flow keeps invalid pixels invalid

Same model as C51; reachable values.

Status: **partial**. Proved for NaN and for invalid values farther from the range than the number of iterations; false when the invalid value is inside the range.

Theorems: `C64_invalid_kept_partial`, `C64_invalid_refined`

### C65 The Lucas-Kanade step has the announced sign and axes

Contract of least squares on planes; the gradient of a plane is constant.

Status: **proved**. Under the contract LeastSquares of np.linalg.lstsq, which exLstsq_contract shows satisfiable.

Theorems: `C65_identical`, `C65_plane`, `exLstsq_contract`

### C66 The margins of the optical flow follow the steps of their axis

Definition of the margins.

Status: **partial**. False of the code: the row and column steps are exchanged. The margins are right exactly when the two steps are equal.

Theorems: `C66_margins_partial`, `C66_swapped`

### C67 The interpolation refinement keeps the sign of the score

The sampled point of the interpolation under its contract.

Status: **partial**. False of the code for negative similarities: the absolute value is returned. Proved: at a sample the score is the absolute value of the cost.

Theorems: `C67_score_at_sample_partial`, `C67_sign_lost`

### C68 Missing costs are filled between the known ones

`np.interp` between known points, by induction on the list of known points; from the cost volumes to the solver by C53_own_surface (C68_solver).

Status: **proved**. C68_solver starts from the cost volumes: the solver receives numbers only.

Theorems: `C68_filled`, `C68_solver`

### C69 The reported ratios count the pixels having a candidate

C03 with the report.

Status: **proved**. 

Theorems: `C69_reported_ratio`

### C70 A run is the composition of its steps

The callbacks are run on the machine model; the path of the machine (C29) turned into a fold of the step functions, compared with the specification by induction on the refinements.

Status: **proved**. Correlation, zoom, matching cost and optical flow solver are parameters.

Theorems: `C70_run_composes`

### C71 The result of a run does not depend on the earlier runs of the machine

Simulation between two machines which differ by their old attributes, by induction on the pipeline; witness for the false part.

Status: **partial**. Proved for every pipeline with a disparity step. False without one: an accepted pipeline which stops after the matching cost returns the maps of the previous run (C71_stale_maps_false).

Theorems: `C71_history_independent_partial`, `C71_stale_maps_false`

### C72 With an estimation the disparities stay near the estimated displacement

C70 with C09/C46, the rounding of the estimation and the triangle inequality.

Status: **proved**. With a dichotomy: step one, subpix a power of two, margins of the filter, one refinement.

Theorems: `C72_run_near_estimation`, `C72_run_refined_near_estimation`

### C73 Accepted steps are positive integers

Case analysis of the schema over JSON values; witness 3/2.

Status: **partial**. Anything but a list of two numbers at least one is rejected. The row step may be a float, True or infinity (C73_float_row_step_false); the column step is checked by Pandora (contract).

Theorems: `C73_accepted_steps_partial`, `C73_wrong_steps_raise`, `C73_float_row_step_false`

### C74 Accepted disparities are accepted again at the creation of the datasets

Case analysis of the two checks over JSON values.

Status: **proved**. Without estimation; with one the disparities are replaced.

Theorems: `C74_accepted_disparities`

### C75 Datasets of an accepted configuration are well formed

Inversion of the creation, C10/C11 lemmas on ranges, C35 on accepted sections; witness of one row.

Status: **partial**. Created for images of at least two rows and columns. False for one row or one column with grids (np.squeeze, C75_one_row_false).

Theorems: `C75_pair_ok`, `C75_created_partial`, `C75_one_row_false`

### C76 Resampling along the columns samples the image between its columns

Slice and count lemmas of the zoom (as C12), then the interpolation at k/subpix; transposition with the row version.

Status: **proved**. scipy zoom with order 1 is a contract (zoomLinearCol).

Theorems: `C76_columns_sampled`, `C76_transpose`

### C77 What a successful execution writes

Inversion of main (check, launch, save, finish) and of the run: a run without disparity step leaves the maps empty.

Status: **proved**. Failures of the disk when writing are not modelled.

Theorems: `C77_what_is_written`

### C78 The rasters answer the configuration of the user

Inversion of main into its stages (Stages), then C09 for the volumes, C17/C19/C21 lemmas for the saved zone, C37 for the values kept by the check.

Status: **proved**. Under DiskContract (sizes of what is read) and PandoraContract (subpix positive, costs finite or NaN).

Theorems: `C78_files_answer_user`

### C79 The saved configuration describes the search

As C78, with the invariant that the completed configuration holds the disparities searched (C39, C72 lemmas).

Status: **proved**. Same contracts as C78; the correlation is a parameter.

Theorems: `C79_saved_configuration`

### C80 The report describes the saved rasters

Stages, shape of the maps and C55 without ROI; with a ROI, an execution evaluated by the kernel where the mean differs.

Status: **partial**. Proved without ROI, for the mean, deviation and quantiles. With a ROI it is false: the report is computed with the margins (C80_false_with_roi).

Theorems: `C80_report_describes_files_partial`, `C80_false_with_roi`

### C81 An accepted configuration runs to the end

Forward simulation of main: each checked section is accepted again when the step is built (Rebuild), the ROI, the datasets, the volumes (C13, C16), the maps (C15), the refinements (C46, C50, C53) and the files (saved_zone) exist; the margins recorded by the check are those of the refinement built (refinement_margins). The refinement is checked with the window and steps of the matching cost (checked_with). Five accepted configurations evaluated by the kernel raise. The pipelines without a disparity step are in Props/Short.lean (short_callbacks).

Status: **partial**. Under RunContract (accepted images can be read, check_dataset accepts them, Pandora keeps its own choices). False for the dichotomy with steps other than one, for grids of disparities with steps other than one, for an estimation with a ROI and initial disparities which are null or of two kinds, for the optical flow when no window fits or with a ROI and steps other than one. C81_without_disparity: the pipelines which stop before the disparity. Missing: steps which are not integers.

Theorems: `C81_accepted_runs_partial`, `C81_dichotomy_step_false`, `C81_grid_step_false`, `C81_without_disparity`, `C81_estimation_null_false`, `C81_estimation_mixed_false`, `C81_flow_small_false`, `C81_flow_roi_false`, `C81_cardinal_sine_meets`

### C82 The rasters of a run with a dichotomy answer the user

Stages of main as for C78; the plan of the run is the one of the checked dichotomy section (dicho_rebuilt, mc_rebuilt), the steps are one because the run succeeded (C61), then C42, C41 and C44 on the maps of the disparity step (dicho_initial).

Status: **proved**. Under DiskContract, PandoraContract and PandoraKeeps. Nothing is assumed of the filters. The score raster is left to C43, C44 and C62.

Theorems: `C82_refined_files`, `C82_refined_saved`

### C83 The bars of the profiling summary describe the calls

Model/Summary gives the lists of values of the figures; the sums over the groups are regrouped (sum_groups).

Status: **proved**. pandas is modelled by its documented behaviour.

Theorems: `C83_calls`, `C83_times`

### C84 The boxes of the profiling summary describe the calls

The box is computed in closed form (C84_box); a witness with two calls refutes the property.

Status: **partial**. False of the code: the box is drawn from the two numbers mean and sum (C84_box gives the values shown); true for a function called once.

Theorems: `C84_false`, `C84_box`, `C84_one_call_partial`

### C85 The summary of an execution only counts its own calls

The file of lines is threaded through the executions of a process; induction on the executions.

Status: **partial**. False of the code: the file is named at the import and is only removed by a summary, so the lines of an execution which failed, or whose expert_mode section is empty, are counted in the next summary. Proved when there is no such earlier execution.

Theorems: `C85_false`, `C85_empty_section`, `C85_no_failure_partial`

### C86 A configuration is accepted exactly when it is correct

Equivalence section by section: each schema is inverted into the conditions on the keys, the callbacks of the machine into the conditions on the steps, and the merge by `update_conf` of an accepted section is shown to succeed.

Status: **proved**. Under the contract GivesLeaves: what Pandora gives for the window, the subpixel factor and the spline order are not dictionaries. The machine is new. The images are opened by rasterio and checked by Pandora: parameters of the environment.

Theorems: `C86_accepted_iff`, `C86_input`, `C86_pipeline`, `disparity_iff`, `estimation_iff`, `matching_cost_iff`, `refinement_iff`

### C87 Each pixel of the rasters is the best pair asked by the user

Stages of main as for C78; the masks of the volumes hide exactly the pairs outside the intervals of a pixel (masked_own, cells_own), with any steps since the run succeeded; then C02, C03 and C05 on the volume (volume_winner). The matcher is the one of the checked section (mc_rebuilt_exact).

Status: **proved**. Under DiskContract, PandoraContract, PandoraKeeps and the linear zoom of the model. The costs of Pandora are a parameter: the theorem says which of them are compared.

Theorems: `C87_best_pair`, `C87_best_pair_saved`, `volume_winner`

### C88 A translation between the two images is found

C87 with window costs: the cost of the displacement is 0 (window_zero) and a null cost means equal windows (window_null).

Status: **proved**. Same contracts as C87, the cost being the idealised window cost of the model with a kernel which is null exactly on equal windows (sad and ssd are proved to be such kernels).

Theorems: `C88_translation_found`, `sad_onlyEqual`, `ssd_onlyEqual`, `window_null`

### C89 The steps only choose the pixels of the rasters

Stages of both executions; the steps are not read by the input section, the ROI or the estimation, so that the images read and the intervals are equal; then the pixel of C87 is described by the same pairs and costs, and such a description has one answer (BestPair.unique).

Status: **proved**. Under DiskContract, PandoraContract and PandoraKeeps; the two matching cost sections give the same subpixel factor, measure, cost and margins (SameMatching).

Theorems: `C89_steps_only_choose`, `BestPair.unique`, `recorded_margins`, `Stages.same_images`

### C90 A region of interest gives the values of the full images

C87 for both executions; the costs of a crop are those of the full images when both windows are in the crop and are missing otherwise (crop_cost); C18 gives the disparities inside the margins. Counterexample with a window of three pixels and a displacement of one row.

Status: **partial**. False of the code: get_roi_processing takes the largest of the disparities and of the half window as margins, not their sum, so that a displaced window may leave the crop (C90_false: the execution on the region is invalid where the full execution finds a translation with score 0). Proved: same values at the pixels whose window is inside the region, with windows of one pixel everywhere; never a better score elsewhere; exact description of the pairs compared. Same contracts as C87, window costs, and CropsWhole: the pixels read in a region are those of the whole image. No-data value of the right image which is not NaN.

Theorems: `C90_same_inside_partial`, `C90_never_better`, `C90_roi_restricts`, `C90_false`

### C91 The disparities of the rasters are exact

C87 and C82 give multiples of a power of two inside the intervals; such a number has a significand of 24 bits (dyadic_float32).

Status: **proved**. Same contracts as C87 and C82. C91_bound_tight: 32768 + 1/512 is not a float32.

Theorems: `C91_exact_disparities`, `C91_exact_refined`, `C91_bound_tight`, `dyadic_float32`

### C92 Larger intervals never worsen the score

C87 for both executions; the sections of the images are completed in the same way (Stages.same_side) so that the images read are equal; the window cost of a pair does not depend on the intervals which contain it (cost_wider).

Status: **proved**. Same contracts as C87, window costs of the model. Without ROI, since the crop depends on the intervals (C90).

Theorems: `C92_wider_never_worse`, `Stages.same_side`, `cost_wider`

### C93 A dichotomy only moves what the same execution without refinement gives

The winner of C87 is proved again with the margins of the filter (Stages.refinedWinner), C40, C43 and C44 give the move of each pixel; both executions read the same images (same_images) and the widened intervals do not change the window costs of the pairs asked (cost_wider, best_congr), so that the best pairs are equal (BestPair.unique).

Status: **proved**. Same contracts as C87 and C82. C93_moved_from_best holds for every cost and ROI, on one execution; C93_refined_against_not compares two executions with the window costs of the model. Without the uniqueness of the pair, the score may be worse (C43).

Theorems: `C93_refined_against_not`, `C93_moved_from_best`, `best_congr`, `Stages.refinedWinner`, `same_images`

### C94 The checked configuration can be checked and executed again

Completing twice with two sets of defaults changes nothing (two_defaults, by get and by key order); each merged section is a fixed point of its check and of the merge (section_same, mc_checked_again), the second pipeline is accepted by C86 and the callbacks compute the same machine (run_same).

Status: **proved**. Same contract PandoraKeeps as C81. The configuration is the one returned by check_conf; the one saved after the run has other keys and is refused (C60).

Theorems: `C94_checked_again`, `C94_same_execution`, `C38_input_section_estimation`

### C95 The saved configuration can be executed again exactly when there is neither a ROI nor an estimation

The only configuration among the files of a successful main is the completed one with the margins (config_saved). Without ROI and estimation the launch leaves the checked configuration unchanged (launch_same), and any dictionary with the four sections of the checked configuration is checked to the same result (checked_like, which also gives C94). With a ROI the saved section has its margins (C60_roi_margins), with an estimation the step is built, so the shifts are written (built_estimation, completed_shifts) and the check refuses them.

Status: **proved**. Same contract PandoraKeeps as C94; the saved file is read back as the dictionary which was saved (C149), a dictionary without duplicate keys.

Theorems: `C95_saved_again_iff`, `C95_saved_again`, `C95_saved_refused`

### C96 After an execution with an optical flow, each disparity stays inside its interval and near the best one

The stages of main (main_stages) give the volumes, the maps and the flow with its options (flow_rebuilt). The points with a complete window are the inner ones (inner_point); whenever volumes are computed the range read one out of step is the range of the pixel itself (subsampled_range, from C09), so the strict inclusion of C52 and the trajectory of C51 are about the interval asked (Stages.flowWinner).

Status: **proved**. Contracts DiskContract, PandoraContract, PandoraKeeps, offset of the configured window equal to (window-1)/2, linear zoom (order 1). The solver and the resampling are arbitrary parameters.

Theorems: `C96_flow_files`, `subsampled_range`

### C97 After an execution with an interpolation, each pixel minimises the surface of its own costs from its best pair

The stages of main give the volumes with margins of three (interp_rebuilt, refinement_margins). Every cell, margins included, is the cost of Pandora exactly when each disparity is in the interval of the pixel or outside the intervals of all of them (cells_all, from masked_own and maskedBy_iff); then C53 gives the surface and C54_partial the bounds (Stages.interpWinner). The missing costs of the surface are specified by `RowFilled`.

Status: **proved**. Contracts DiskContract, PandoraContract, PandoraKeeps, BoundsContract (scipy minimize stays in its bounds), linear zoom (order 1). The costs read for a pixel are those of its own interval and those of the margins, outside the intervals of all the pixels; the result may leave the interval of the pixel (C54).

Theorems: `C97_interpolated_files`, `cells_all`

### C98 An optical flow only moves what the same execution without refinement gives

Both executions are read through their stages (Stages.flowWinner, Stages.winner); their images are equal (same_images), a window cost does not depend on the ranges of the volumes (cost_wider), and the best pair of a pixel is unique (BestPair.unique), so the trajectory of the first starts from the pair of the second.

Status: **proved**. Same full images, window cost (a cost which reads the windows and the displacement only), contracts of C96. With a ROI see C96, which compares with the best pair of the pixel.

Theorems: `C98_flow_against_not`

### C99 An accepted configuration on full images runs to the end exactly when its steps, ranges and refinement agree

One direction is accepted_runs (the proof of C81 with ranges which do not depend on the pixel instead of integers); the other reads the stages of a successful run (Stages.volumes): variable ranges with a step raise (C09), a dichotomy with a step raises (C61), an optical flow without inner point raises (C50), and the ranges are constant exactly when the grid is (constant_iff_flat).

Status: **proved**. Under RunContract (as C81), with finite shifts when there is an estimation, integer steps. C81 gives the sufficient conditions with a ROI.

Theorems: `C99_runs_exactly`

### C100 The rasters depend on the values of the configuration only, not on how it is written

Both executions are read through their stages (two_runs): same images, and at each shared pixel two best pairs; equal intervals ask the same pairs, a window cost does not depend on the ranges of the volumes (cost_wider), and the best pair is unique (best_same).

Status: **proved**. Same full images, window cost (a cost which reads the windows and the displacement only), contracts DiskContract, PandoraContract, PandoraKeeps.

Theorems: `C100_values_only`

### C101 A finer subpixel factor never worsens the score

As C100; a pair asked with n is asked with q * n, and the right image displaced by a multiple of 1 / n is the same image with both factors (slab_finer), so the best cost of the first is a cost of the second.

Status: **proved**. As C100, with the linear resampling of the rows (order 1) and, in the columns, the resampling of the window cost; with the spline orders of Pandora above 1 the resampled columns are not modelled.

Theorems: `C101_finer_never_worse`, `slab_finer`

### C102 An estimation is the same as giving its result

Both executions are read through their stages: the sections of the images are completed in the same way with and without the default disparities of the estimation (side_completed), the same sections give the same steps and the same margins of refinement (same_steps), and the ranges of the estimation are those of constant disparities with the rounded shift, which is unique (isRounding_unique); equal volumes give equal maps, rasters and report (same_outputs).

Status: **proved**. Full images, finite shifts, contracts DiskContract and PandoraContract; the correlation of scikit-image is a parameter of the world. The completed configurations written at the end differ (the first has the results of the estimation).

Theorems: `C102_estimation_is_its_result`, `est_sample`, `side_completed`

### C103 A pixel receives a disparity exactly when two valid windows can be compared

The best pair of each pixel (Stages.winner, as C87) is over the pairs whose cost is not NaN; window_exists shows that, for whole pixels, a window cost on the shifted right image exists exactly when the two windows can be compared, the mask of the shifted image being rebuilt from the no-data value. The counterexample is an execution on 3 x 3 images whose right mask declares every pixel invalid.

Status: **partial**. False of the code for the mask of the right image (C103_false: all the pixels of the right image are declared invalid by the user and the execution still gives disparities). Proved as an equivalence for everything else: borders, no-data of both images, invalid pixels of the left image. Costs follow the windowCost idealisation of Pandora; subpix 1.

Theorems: `C103_given_exactly_partial`, `C103_false`, `window_exists`

### C104 A pixel only depends on the images around it

Both executions are read through Stages.winner on their own images; the displaced right image holds at a row what the rows of the original around the displaced position hold (displaced_local), a window cost only depends on the two windows (window_local), and two best pairs over the same pairs and costs are the same pixel (best_congr, best_same). The example has two pairs of images whose right images differ at the first pixel and in their masks.

Status: **proved**. Full images, contracts DiskContract and PandoraContract for the two worlds; costs follow the windowCost idealisation of Pandora with an arbitrary kernel; resampling zoomLinear. The sizes of the rasters are part of the conclusion.

Theorems: `C104_local`, `window_local`, `displaced_local`

### C105 With a ROI, exactly which accepted configurations run to the end

As C99, with the zone read for the ROI: region_made gives the ROI made by get_roi_processing from the recorded margins, dispBounds_hull its extreme disparities, zone_near the rows and columns of the crop, and crop_constant shows that the ranges read on a crop are constant exactly when the initial disparity is. The examples are two ROI of the same image with a step of two rows: one runs although the grid varies elsewhere, the other fails because of a row outside of it.

Status: **proved**. Under RunContract (as C81), integer steps, without estimation nor optical flow; the margins of the pipeline are those Pandora's GlobalMargins gives for the margins recorded by the check.

Theorems: `C105_runs_exactly_roi`, `dispBounds_hull`, `crop_constant`, `zone_near`

### C106 Exchanging rows and columns exchanges the two disparities

whole_rasters reads both executions through Stages.winner with the cost of a pair of whole pixels as the measure of two windows which can be compared (window_whole, from window_ok_whole); windows of transposed images are compared in the same cases (comparable_transposed), their lists of pixels are permutations of each other (flatMap_swap), and the best pair commutes with the exchange of the two disparities (best_exchanged). The example quantifies over two arbitrary images of 3 by 3 pixels.

Status: **proved**. Full images, subpix 1, contracts DiskContract and PandoraContract for the two worlds; costs follow the windowCost idealisation of Pandora; the no-data value of the right image is not NaN.

Theorems: `C106_transposed`, `whole_rasters`, `window_whole`, `wholeCost_transposed`, `sumOf_orderFree`

### C107 The match of a pixel goes back from the other image

As C106 with comparable_exchanged and pairs_exchanged: the list of pixels of the exchanged windows is the same list with its pairs swapped. The score of the second execution is then the best over a set which contains the score of the first. The example quantifies over two arbitrary images without no-data.

Status: **proved**. Full images, subpix 1, contracts and idealisation as C106. The row and the column disparity of a pixel may come from two different pairs (C87), hence the two existence statements.

Theorems: `C107_goes_back`, `comparable_exchanged`, `pairs_exchanged`, `sad_symmetric`, `ssd_symmetric`

### C108 Mirroring the images opposes the disparities

best_chosen restates the best pair of a pixel over the pairs which reach a cost (Reaches); Reaches of mirrored images at the mirrored pixel is Reaches with opposed disparities (reaches_mirrored: the windows are the same up to the order of their pixels), and chosen_moved compares the choices. The example quantifies over two arbitrary images turned by half a turn; C108_false takes constant images.

Status: **partial**. False of the code with ties: the smallest disparity is taken in both executions (C108_false, constant images). Proved: the scores are always equal, and the disparities are opposed when one pair only reaches the score. Contracts and idealisation as C106.

Theorems: `C108_mirrored_partial`, `C108_false`, `reaches_mirrored`, `turned_range`, `chosen_moved`

### C109 A change of radiometry which the measure follows does not change the disparities

As C108 with comparable_regraded, pairs_regraded and chosen_seen; sumOf_affine gives the hypothesis for sums of differences. The example quantifies over two arbitrary images and v -> 2 v + 1.

Status: **proved**. Contracts and idealisation as C106; sad_affine and ssd_affine are the instances for affine changes.

Theorems: `C109_regraded`, `sad_affine`, `ssd_affine`, `sumOf_affine`

### C110 Two frames of the same scene give the same disparities where they overlap

As C108 with reaches_overlap and chosen_same. The example quantifies over a scene of which the second images start one row below.

Status: **proved**. Contracts and idealisation as C106, the two worlds having images of different sizes.

Theorems: `C110_overlap`, `reaches_overlap`

### C111 More no-data never improves a score nor gives a disparity

As C108 with chosen_fewer. The example quantifies over two arbitrary images, the first pixel of the right one becoming no-data.

Status: **proved**. Contracts and idealisation as C106.

Theorems: `C111_more_nodata`, `chosen_fewer`

### C112 The values of the no-data pixels do not matter

As C108 with comparable_nodata, pairs_nodata and chosen_same. The example quantifies over two arbitrary images with the no-data values -1 and -500 on the first pixel of the right one; C112_false runs them with disparities of half pixels, where the row between the no-data pixel and the next one is interpolated (full_rasters, exNd_zero, exNd_positive).

Status: **partial**. False of the code with disparities of fractions of pixels: row_zoom_img interpolates the rows from the no-data values, and shift_disp_row_img then only flags the exact no-data value (C112_false: no-data values -1 and -500 give different scores with subpix 2). Proved for disparities of whole pixels. Contracts and idealisation as C106.

Theorems: `C112_nodata_value_partial`, `C112_false`, `full_rasters`, `comparable_nodata`, `pairs_nodata`

### C113 The interpolation starts from the disparities of the execution without refinement

The costs of both executions are the same (C96 machinery: images, intervals, window_local), so the start of the minimisation, which is the pair kept by compute_disp_maps, is the pair of the second; the end and the score are read off the model of Interpolation.refinement_method.

Status: **proved**. Contracts as C106; scipy minimize is a parameter which stays within its bounds (BoundsContract) and interp2d is a parameter.

Theorems: `C113_interp_against_not`

### C114 A change of brightness and contrast does not change the disparities of fractions of pixels

full_rasters gives the best pair of both executions; displaced_seen (an affine change commutes with the interpolation of rows and with the no-data flag) and window_seen (with the interpolation of columns) give the costs of the second as those of the first seen through the function; best_seen concludes. The example quantifies over two arbitrary images and v -> 2v+1 with half pixels.

Status: **proved**. Contracts and idealisation as C106 (exact arithmetic: a float gain would round); linear zoom of rows (scipy.ndimage.zoom order 1).

Theorems: `C114_brightness`, `full_rasters`, `window_seen`, `displaced_seen`, `affine_lerp`, `best_seen`

### C115 Mirroring the images opposes the disparities of fractions of pixels

full_rasters gives the best pair of both executions; displaced_mirrored (the rows interpolated of the mirrored image), sample_mirrored (the columns) and window_mirrored give the costs of the second as those of the first at the opposed pair, interval_mirrored the pairs asked, best_moved concludes. The example quantifies over two arbitrary images turned by half a turn, with half pixels.

Status: **proved**. Contracts and idealisation as C106, linear zoom of rows. With ties the smallest disparities are taken in both executions (C108_false), so the disparities are only compared when a single pair has the best cost.

Theorems: `C115_mirrored`, `displaced_mirrored`, `sample_mirrored`, `window_mirrored`, `interval_mirrored`, `best_moved`

### C116 Two frames of the same scene give the same disparities of fractions of pixels where they overlap

displaced_at writes a displaced image from the rows below and above; displaced_scene and window_scene transport the costs from one frame to the other; best_same concludes. The example quantifies over a scene of which the second frame has one more row above, with half pixels.

Status: **proved**. Contracts and idealisation as C106, linear zoom of rows.

Theorems: `C116_overlap`, `displaced_at`, `displaced_scene`, `window_scene`

### C117 Two regions of interest of the same images give the same values at the pixels they share

Stages.tile: the values of a pixel whose window is inside the region are the best pair for the costs of the full images (crop_cost, C18 for the margins, cost_fits), so best_same applies to both executions. The example takes the rows 1-2 and the rows 2-3 of the same images.

Status: **partial**. False of the code near the borders: get_roi_processing takes the largest of the disparities and of the half window as margin, not their sum, so a pixel of the border of one region may have no cost there and one in the other region (C117_false). Proved for the pixels whose window is inside both regions. Contracts as C90, and WholeReadable: an image of which a region can be read can be read in whole.

Theorems: `C117_tiles_agree_partial`, `C117_false`, `Stages.tile`, `asked_range_at`

### C118 Exchanging rows and columns exchanges the two disparities, with fractions of pixels

displaced_lin, sample_lin: the two interpolations of a right image without no-data are `lin` along the columns then along the rows, lin_swap exchanges them by ring; lin_above keeps the interpolated values above no-data, so window_ok_clear reduces the comparability to bounds, symmetric in the two axes. best_exchanged and best_same conclude. C118_false reuses the images of C112_false, which are their own transposes.

Status: **partial**. False of the code when the right image holds no-data: a row between two rows is interpolated from the no-data value and then only compared with it, a column between a no-data pixel and another one has no cost (C118_false: the same symmetric images, read once each way, give the score zero on one side only). Proved when every value of the right image is a number above its no-data value. Contracts as C115: the zoom of scipy is linear, the measures do not depend on the order of the pixels.

Theorems: `C118_exchanged_fractions_partial`, `C118_false`, `lin_swap`, `window_ok_clear`, `window_transposed`

### C119 After a dichotomy each pixel is the end of a search, from its best pair, on its own filtered costs

bicubic_kernel, sinc_weights: the coefficients of the filters are the kernels at the positions of the lattice. interpolate1_filtered turns the window extracted from the cost volume and its two products into the double sum at the nodes. mem_moves, moves_order, moves_zero and search_move characterise the choice among the nine candidates by their order. method_searched is an induction on the iterations with the cost volume, its axes and margins (FitsMargins) as invariants; searchedWinner joins it to the execution, with dicho_rebuilt_exact for the filter section of the user and cells_all for the costs.

Status: **proved**. Spec/Searched.lean states the kernels, the interpolated value as a double sum over the samples around the position, the choice among the nine moves and the search as an inductive relation, without the arrays, windows or masks of the model. searchedPixel_unique shows that the relation determines the result. The costs read for the filter are those of the pixel, NaN when the disparity belongs only to the intervals of other pixels. The cardinal sine is over the reals (C119_sinc_kernel). Contracts: rasterio, pandora and the measures as in C87, the zoom of scipy is linear.

Theorems: `C119_searched_files`, `C119_sinc_kernel`, `method_searched`, `bestMove_unique`, `path_unique`, `searchedPixel_unique`, `bicubic_kernel`, `sinc_weights`

### C120 More iterations of the dichotomy go on from where fewer ones stop

path_onward: a longer path starts with the shorter one, by induction and bestMove_unique; path_near bounds what is left and compares the values. Stages.dichotomised gives, from C119, the two searches of each pixel on the same costs.

Status: **proved**. The two executions have the same kernel: the bicubic filter, or the same size of cardinal sine, whose coefficients do not depend on the number of iterations over the reals (C119_sinc_kernel). Contracts as C119.

Theorems: `C120_more_iterations`, `path_onward`, `path_near`, `searched_further`

### C121 A refined pixel only depends on the images around it

searched_scaled with the factor one: path_scaled follows the search as long as the values agree within 1 / 2 ^ k of its start, node_inside places the samples of the filter in the extended intervals, extent_same shows that the extents of the disparities agree. window_local and displaced_local (C104) give the costs.

Status: **proved**. The intervals are those of all the pixels: with a grid the filter reads the costs beyond the first and the last disparity of the image, so that its samples depend on the intervals of the other pixels (seen, in C119). Contracts as C119.

Theorems: `C121_local_dichotomy`, `searched_scaled`, `path_scaled`, `filtered_scaled`, `node_inside`, `extent_same`

### C122 Brightness and contrast do not change the refined disparities

searched_scaled: an interpolated value is a sum of samples times weights (filtered_scaled), so that scaled costs give scaled values, the same choices (path_scaled) and the same search. window_seen (C114) gives the costs.

Status: **proved**. The measure is scaled exactly (arithmetic on an ordered field, not on floats). Contracts as C119.

Theorems: `C122_brightness_dichotomy`, `searched_scaled`, `path_scaled`, `filtered_scaled`, `tried_scaled`

### C123 The dichotomy finds an optimum between the samples

Built on C119. The weights of the bicubic kernel reproduce the polynomials of degree two (keys_quadratic), so the filtered costs are the quadratic surface at every position tried (filtered_bowl). The best pair is the sample nearest to the optimum (bowl_winner) and each step of the search keeps the distance below half of its step (path_bowl).

Status: **proved**. On exact numbers (field K): the rounding of the floats is not modelled. The statement speaks of the costs of Pandora for the displaced images, the bicubic kernel is the one of the specification of C119.

Theorems: `C123_quadratic_optimum`, `filtered_bowl`, `keys_quadratic`, `path_bowl`, `bowl_winner`, `searched_bowl`

### C124 A translation of whole pixels is kept by a refinement

translated_best (shared with C88) gives the displacement found by the matching. The least squares of two equal windows without difference has a null solution (flow_kept), so the optical flow adds nothing. A path of the dichotomy which starts at a null cost stays when the other values tried are positive (path_kept). The counter-example interpolates the costs 0, 1 and 100 around a pixel with the bicubic weights: the value half a pixel away is -191/16.

Status: **partial**. Proved for the optical flow. For a dichotomy the claim is false: C124_dichotomy_moves gives a run on two equal images where the best pixel moves and its score is negative; C124_dichotomy_keeps_partial proves what holds, when the interpolated costs around the match are positive. On exact numbers.

Theorems: `C124_flow_keeps`, `C124_dichotomy_keeps_partial`, `C124_dichotomy_moves`, `translated_best`, `flow_kept`, `path_kept`

### C125 With a ROI and an optical flow, exactly which accepted configurations run to the end

(model: all steps of main) the run is inverted into its stages as for C105; the optical flow raises without inner point (C50_small_raises) and when the subsampled grids and the maps have different shapes (flow_grid_shape); flow_axis relates the arange of the coordinates of the cost volumes to the groups of step pixels; the other direction is accepted_runs_fits with flow_runs.

Status: **proved**. Equivalence, both directions, for no refinement, interpolation, dichotomy and optical flow with a ROI; the pixels read are given by the specification NearRoi and the points by FlowAxis. C105 is now its restriction without optical flow. exFlowBand_exactly: rows 2 to 7 with a step of two run, rows 1 to 8 raise.

Theorems: `C125_runs_exactly_roi`

### C126 With an estimation and a ROI, exactly which accepted configurations run to the end

(model: all steps of main) region_iff: the section checked with an estimation holds the disparities of the user completed by the default ones (updateConf inverted key by key, conversions of NaN and inf included); the run is inverted into its stages as for C125 (Stages.needs, shared with C125) and the other direction is accepted_runs_fits with EstimationFits.

Status: **proved**. Equivalence, both directions, for every pair of disparities around the ROI (specification RegionDisp, from the configuration of the user alone), and C126_needs_disparities: without such disparities, or with an integer and a grid, main does not end. With C99 (no ROI), C105 and C125 (ROI, no estimation) the accepted configurations with a disparity step which run are characterised. exEstBand_exactly: rows 3 to 6 with a step of two and an optical flow run with an initial disparity of 0 and raise when no disparity is given.

Theorems: `C126_runs_exactly_estimated`, `C126_needs_disparities`

### C127 Brightness and contrast with an optical flow

(model: `Main`, `OpticalFlow`, `Run`) from the pixel-level description of C96 (`flow_rasters`): the start is the same by C114's comparison of the costs; gradients and differences of windows seen through the same affine change are multiplied by the gain, so that the motions are the same, and the trajectories agree by induction on the iterations (`trajectory_moved`). `lstsq` and `map_coordinates` are parameters; the hypotheses on them are `SolvesScaled`, `KeepsSize`, `ResamplesThrough`. The example has the normal equations as solver.

Status: **proved**. Same gain and offset on both images; contracts on the solver and the resampling are hypotheses, met by least squares in the example.

Theorems: `C127_brightness_flow`

### C128 The part of the images a pixel refined by an optical flow depends on

(model: `Main`, `OpticalFlow`, `Run`) same route with the identity instead of the affine change; the displacement of the right window is in the intervals or zero (`startShift_in`).

Status: **proved**. The resampling only depends on the values of the window.

Theorems: `C128_local_flow`

### C129 Exchanging the axes of the images exchanges the disparities refined by an optical flow

(model: Model/OpticalFlow.lean, Model/Main.lean; spec: Spec/FlowSymmetry.lean) the cells of the transposed window are a permutation of the cells, so the equations are a permutation with exchanged coefficients (lucasKanade_moved); induction on the iterations with the exchange of the two motions (trajectory_moved); the starting pair is exchanged as in C106.

Status: **proved**. The solver and the resampling are external: their behaviour on exchanged axes is a hypothesis, met by the normal equations of the example.

Theorems: `C129_transposed_flow`

### C130 Mirroring the images opposes the disparities refined by an optical flow

(model: Model/OpticalFlow.lean, Model/Main.lean; spec: Spec/FlowSymmetry.lean) the gradient of a mirrored window is opposed in the mirrored direction, borders included (gradient1_mirrored); induction on the iterations where a failure of the solver is the last iteration of both (trajectory_moved_or); the starting pair is opposed as in C115.

Status: **proved**. As in C115, the disparities are compared when one pair only reaches the score: ties are broken toward the smallest disparities, which a mirror changes.

Theorems: `C130_mirrored_flow`

### C131 Two frames of a scene give the same disparities refined by an optical flow

(model: Model/OpticalFlow.lean, Model/Main.lean; spec: Spec/FlowSymmetry.lean) the windows of the two frames hold the same values or are both outside (window_scene_flow, right_scene_flow), so the motions and the trajectories are the same; the starting pair is the same as in C116.

Status: **proved**. A pixel close to the border of one frame only is not refined in this frame, hence the hypothesis on both.

Theorems: `C131_overlap_flow`

### C132 Two frames of a scene give the same disparities refined by a dichotomy

(model: Model/Dichotomy.lean, Model/Main.lean; spec: Spec/RefinedTiles.lean) the costs of all the pairs met by the interpolation are the same in both frames (searched_moved with window_scene), so the starting pair and each step of the search are the same (path_unique, searchedPixel_unique).

Status: **proved**. The first and last disparities of the intervals matter because the interpolation is centred differently at the ends of the volume.

Theorems: `C132_overlap_dichotomy`

### C133 Two zones of the same images give the same disparities refined by a dichotomy

(model: Model/Dichotomy.lean, Model/ImgTools.lean, Model/Main.lean; spec: Spec/RefinedTiles.lean) partial: the costs of the pairs met by the interpolation are those of the full images when the extended window is in the zone (Stages.zoned, crop_cost), then as C132; the negation runs a region of two rows with a displacement of two rows and windows of three pixels.

Status: **partial**. Proved at the pixels whose window, extended by the samples of the kernel, is inside both zones. The full statement is false of the code (C133_false): get_roi_processing takes the largest of the disparity and of the margins instead of their sum, so the displaced window of a pixel close to the border of the region is not read and the pixel is invalid, while it has a disparity in the full images.

Theorems: `C133_zones_agree_dichotomy_partial`, `C133_false`

### C134 Exchanging rows and columns exchanges the disparities refined by a dichotomy

(model: Model/Dichotomy.lean, Model/Main.lean; spec: Spec/RefinedSymmetry.lean) partial: the interpolated costs are exchanged (filtered_exchanged, double sums swapped), a best move without rival is a best move of the exchanged search (path_exchanged by induction on the path), then the starting pair and the costs as in C106; the negation runs a symmetric image with two equal minima half a pixel away.

Status: **partial**. Proved at the pixels where the search never has to choose between two best moves. The full statement is false of the code (C134_false): search_new_best_point takes the first best move by rows and then by columns, so on an image which is its own transposed image the search moves along the columns in both executions.

Theorems: `C134_transposed_dichotomy_partial`, `C134_false`

### C135 Mirroring the images opposes the disparities refined by a dichotomy with the bicubic filter

(model: Model/Dichotomy.lean, Model/Filters.lean, Model/Main.lean; spec: Spec/RefinedMirror.lean) the cubic kernel is even and interpolates at whole positions, so the interpolation along a reversed axis is the same (along_opposed, both for whole and fractional positions); then filtered_opposed on the two axes, path_opposed by induction on the search, and the costs and starting pairs as in C115.

Status: **proved**. The condition on the costs is needed because the four samples are not centred on whole positions: a NaN two pixels after a whole position spoils it, a NaN two pixels before does not.

Theorems: `C135_mirrored_dichotomy`

### C136 Two zones of the same images give the same values where they overlap, after an optical flow

(model: Model/OpticalFlow.lean, Model/ImgTools.lean, Model/Main.lean; spec: Spec/FlowZones.lean) what is read is a part of the full images which holds the zone and the displaced zone (C18), so the costs of the pixels whose window is inside are those of the full images (crop_cost) and the windows of the flow, displaced or not, are those of the full images or out of both (windowOf_crop, rightWindow_crop, fits_near); then flowPixel_seen. C136_false: windows of three pixels, a displacement of two rows, the rows 0 to 2.

Status: **partial**. Proved for the scores of the pixels whose window is inside both zones and for the refined disparities of those which also have points of both zones on each side, half a window away. The full statement is false of the code (C136_false): get_roi_processing takes the largest of the disparity and of the margins instead of their sum, so the displaced window of a pixel close to the border of the region is not read and the pixel has no score, while it has one in the full images.

Theorems: `C136_zones_agree_flow_partial`, `C136_false`

### C137 The values of the no-data pixels do not matter with a dichotomy from whole pixels

(model: Main, Dichotomy, MatchingCost, Pandora; spec: NoDataValue, Dichotomised) the costs of whole displacements do not depend on the no-data values (`wholeCost_nodata`), and a search only depends on the costs it may read (`searched_moved`).

Status: **proved**. Disparities of fractions of pixels before the refinement are outside the statement: the rows between two rows are interpolated from the no-data values (C112_false).

Theorems: `C137_nodata_value_dichotomy`

### C138 The values of the no-data pixels do not matter with an optical flow

(model: Main, OpticalFlow, MatchingCost, Pandora; spec: NoDataValue, Flowed, Whole) the start of the refinement only depends on the costs; when one pair reaches the score, the windows of the refinement are those which were compared, and hold no no-data pixel. The counterexample has two best pairs, one row down and one column to the right, and a no-data pixel in the window of the pair made of the smaller disparities.

Status: **partial**. The full claim is false (C138_false): when two pairs of disparities reach the score, the row disparity comes from one and the column disparity from the other, and the window of the refinement may hold no-data values. The theorem covers every score, the pixels without a score, and the refined disparities of the pixels whose score is reached by one pair only.

Theorems: `C138_nodata_value_flow_partial`, `C138_false`

### C139 The report is a standard JSON file

(model: ReportFile.reportFile, dump, Main.main; spec: Spec/ReportFile with a reader of standard JSON) the reader is shown, by induction on the document, to give back what was written exactly when all the leaves are numbers; the leaves are the statistics of C55 on the pixels of the rasters; the absence of infinity is deduced, for each method of refinement, from the theorems on the files of C77, C80, C96 and C97

Status: **partial**. the text is standard exactly when each raster has a valid pixel (the rasters of a complete execution hold no infinity, whatever the refinement): json.dump writes the word NaN when nothing is valid, shown by an execution which succeeds

Theorems: `C139_report_read_partial`, `C139_report_file_partial`, `C139_false`, `readJson_dump`

### C140 Larger intervals with a dichotomy

(model: Main.main; spec: Spec/RefinedWider) the winners are the same because the best pairs of the larger intervals are in the smaller ones; the search is local, so that it only reads samples at most a kernel away from the smaller intervals, which are read in both executions when the intervals are uniform

Status: **partial**. proved when all the pixels have the same intervals in each execution (integers). False with grids: the disparities of other pixels only have no cost, and the filter then misses samples at a pixel whose best pair is inside its own intervals, shown by two executions which succeed

Theorems: `C140_wider_dichotomy_partial`, `C140_false`, `searched_nested`

### C141 Larger intervals with an optical flow

(model: Main.main; spec: Spec/FlowWider, Spec/RefinedWider) the winners are the same because the best pairs of the larger intervals are in the smaller ones; the trajectory of the flow depends on the images and the winner only, so that its end is the same and is compared with two nested intervals

Status: **proved**. the same images and configurations but for the intervals, integers or grids

Theorems: `C141_wider_flow`, `inside_nested`, `best_nested`

### C142 More iterations of the optical flow

(model: Main.main; spec: Spec/FlowIterations) by induction on the fewer iterations: either the trajectory has stopped, and more iterations change nothing, or it goes on from the same window; each further iteration moves by at most one pixel

Status: **proved**. the same images and configurations but for the number of iterations

Theorems: `C142_more_iterations_flow`, `trajectory_more`, `inside_more`

### C143 What a pixel refined by an interpolation depends on

(model: Main.main; spec: Spec/InterpLocal, Spec/Interpolation) the axes are the same because the intervals are; the costs of the pixel are the same (window_local, displaced_local) and so is the pair the minimisation starts from; the missing costs are determined by the known ones (RowFilled, filled_unique), so that interp2d gets the same matrix and minimize the same surface

Status: **proved**. Contracts as C97, and ReadsInside (interp2d only reads the elements of its axes and of its matrix), which exI_reads shows satisfiable.

Theorems: `C143_local_interpolation`, `filled_unique`, `interp_same`

### C144 Two frames of a scene give the same disparities refined by an interpolation

(model: Main.main; spec: Spec/InterpLocal, Spec/Overlap) the axes are the same; the windows of the two frames hold the same values, or are both outside (window_scene), so that the two cost tables are the same and so is the surface (interp_moved)

Status: **proved**. Contracts as C143. Example on frames of six and seven rows.

Theorems: `C144_overlap_interpolation`, `interp_moved`

### C145 Two zones of the same images give the same disparities refined by an interpolation

(model: Main.main; spec: Spec/InterpTiles, Spec/RefinedTiles) the costs of a region are those of the full images where the displaced window is in what is read (crop_cost); then as C144. Counterexample: a right image with data on one row only, five rows below the pixel, and a displacement of two rows: the cost exists in the full images and not in the region

Status: **partial**. The full statement is C145Statement and is false (C145_false). Proved for the pixels whose window, extended by three pixels on each side, is inside both zones (InsideExtended hw 3 3). The no-data value of the right image must be a number.

Theorems: `C145_zones_agree_interpolation_partial`, `C145_false`

### C146 Brightness and contrast do not change the disparities given by an interpolation

(model: Main.main; spec: Spec/InterpLocal, Spec/Symmetry) the costs of the two executions are the same (window_seen), also for the disparities of the extended intervals; two executions with the same costs give the same surfaces and the same starting pairs (interpolated_agree)

Status: **proved**. Contracts as C143. A change which multiplies the measure is not covered: the minimiser of scipy has absolute tolerances.

Theorems: `C146_brightness_interpolation`, `interpolated_agree`

### C147 The values of the no-data pixels do not matter with an interpolation from whole pixels

(model: Main.main; spec: Spec/InterpLocal, Spec/NoDataValue) as C146, with wholeCost_nodata

Status: **proved**. Contracts as C143.

Theorems: `C147_nodata_value_interpolation`, `interpolated_agree`

### C148 Exchanging rows and columns exchanges the disparities given by an interpolation

(model: Main.main; spec: Spec/InterpExchange, Spec/InterpLocal) at a pixel whose costs all exist nothing is filled: the matrices of the two executions are transposed (lattice_whole), so are the surfaces, the starting pairs (best_exchanged) and the results (interp_exchanged); counterexample with one no-data pixel at the corner of the extended interval

Status: **partial**. Proved at the pixels whose interval is the whole range and whose costs all exist. False elsewhere (C148_false): np.interp fills the missing costs from the indices of the rows only. Contracts as C143, plus Exchanges: interp2d and minimize treat the two axes alike.

Theorems: `C148_transposed_interpolation_partial`, `C148_false`, `interp_exchanged`

### C149 The saved configuration is a standard JSON file which is read back as it was saved

(model: Model/ConfigFile; spec: Spec/ConfigFile) the reader of Python is a recursive descent, the grammar of RFC 8259 an inductive relation; reading what was written by mutual induction on the values (scan_dump), a standard text is the written text of a value without NaN by mutual induction on derivations (denotes_dump), and conversely (dump_denotes); what is read is the text of the value which is found (scan_sound); with C95 for the second execution

Status: **partial**. The file is a standard JSON text exactly when the saved configuration holds neither NaN nor infinity. False otherwise (C149_false): with invalid_disparity NaN the file holds the word NaN. White space, digits and escape sequences are left out: a text is the list of its tokens. numpy scalars, which json.dump refuses, are not in the model.

Theorems: `C149_config_file_partial`, `C149_standard_read`, `C149_other_refused`, `C149_nan_not_standard`, `C149_false`, `load_iff`, `standard_iff`

### C150 Mirroring the images opposes the disparities given by an interpolation

(model: Main.main; spec: Spec/InterpMirror, Spec/InterpExchange, Spec/Symmetry) the axes of the two executions are mirrored (lattice_mirrored), at a pixel whose costs all exist the matrices are mirrored (wholeCost_mirrored of C135), so are the surfaces, the starting pairs (best_sole) and the results (interp_mirrored); counterexample with one no-data pixel in a row of the right image

Status: **partial**. Proved at the pixels whose interval is the whole range and whose costs all exist. False elsewhere (C150_false): a missing cost takes the last known cost of its row. Contracts: Mirrors (interp2d and minimize treat both directions of an axis alike) and the bounds of minimize.

Theorems: `C150_mirrored_interpolation_partial`, `C150_false`, `interp_mirrored`

### C151 More no-data never gives a refined disparity, with an interpolation or a dichotomy

(model: Main.main; spec: Spec/Symmetry, Spec/InterpMain, Spec/Searched) a cost found with more no-data is found without, with the same value (comparable_less, wholeCost_less); no disparity in the first means that no read cost exists for the interpolation, no asked cost for the dichotomy (the search stays less than one away from its start); with the same costs, interp_same and searched_moved. The examples quantify over arbitrary images and holes

Status: **proved**. Contracts as C143 and C137.

Theorems: `C151_more_nodata_interpolation`, `C151_more_nodata_dichotomy`, `comparable_less`, `wholeCost_less`

### C152 More no-data never gives a refined disparity nor a better score, with an optical flow

(model: Main.main; spec: Spec/Symmetry, Spec/FlowMain) the costs as C151; the score is the best of fewer costs; when its only pair is kept, the start of the flow and the values of the two windows it reads are the same (flowPixel_seen). The counterexample: the best pair of a pixel is one row down, the end of the interval, where its windows are equal; without it the flow starts from (0, 0) and ends inside

Status: **partial**. Proved: the scores, and the disparities of the pixels whose only best pair can still be compared. False for the refined disparities of the others (C152_false): a start at the end of an interval gives no refined disparity, the next best pair may give one. Contracts as C138.

Theorems: `C152_more_nodata_flow_partial`, `C152_false`

### C153 Larger intervals keep the pixels which have a disparity after an interpolation

(model: Main.main; spec: Spec/Wider, Spec/RefinedWider, Spec/InterpMain) a pixel with a disparity has a cost on the axes of the first execution; the extents are nested (extent_nested), so this pair of disparities is on the axes of the second (lattice_larger), is read (uniform_read) and has the same cost (free_window); then the pixel is minimised, inside the bounds. The counterexample: no data in the first three rows of the right image, the only cost of a pixel is the one of the displacement three, read with the row disparity zero and not read with a grid from minus two to two and a range of two. The example beside it holds for all the images of six rows and columns.

Status: **partial**. Proved when the larger intervals are the same for all the pixels (integers). False with grids (C153_false): the costs of the margins are read, those between the interval of a pixel and the smallest or greatest disparity of all the pixels are not, so a cost read with a smaller interval may not be read with a larger one.

Theorems: `C153_wider_keeps_interpolated_partial`, `C153_false`

### C154 A pixel receives refined disparities exactly when two windows of its intervals can be compared

(model: Main.main; spec: Spec/RefinedGiven, Spec/Usable) a cost of whole disparities exists exactly when the windows can be compared (window_exists); with a dichotomy the best pair exists exactly when one of its costs does, and the search keeps a start at an end and moves another one by less than one (path_near); with an interpolation the pixel is minimised exactly when a cost read exists. The counterexample is the image without data in its first three rows of C153: the row disparity asked is zero and the only cost is the one of the displacement three. The examples beside hold for all the numbers in the images and all the holes of the right image. With an optical flow (Props/FlowGiven) the score is the one of the best pair, and a flow which starts from NaN gives NaN; the counterexample is a right image one row lower, whose best pair is the end of the row interval.

Status: **partial**. Proved as an equivalence for a dichotomy, with the disparities in their intervals. With an interpolation, proved with the pairs it reads: those of the intervals of the pixel and those of the margins. The full statement is false for it (C154_false): a cost of the margins alone gives a disparity. With an optical flow and NaN as the invalid value, proved for the scores, and a pixel without a score has no disparities; false for the disparities (C154_flow_false): a pixel whose best pair is at the end of an interval has a score and no refined disparity.

Theorems: `C154_given_dichotomy`, `C154_given_interpolation_partial`, `C154_given_flow_partial`, `C154_false`, `C154_flow_false`

### C155 The steps only choose the pixels of the rasters, with an optical flow

(model: Main.main, OpticalFlow; spec: Spec/FlowMain (InnerPoint), Spec/Steps (AgreeOnCommon)) from the pixel-level description of C96 (flow_rasters): the costs asked do not depend on the limits of the cost volumes (free_window), so the best pairs and scores are the same; the trajectory only depends on the windows and on the start. The counterexample is one image compared with itself, with all the rows then one out of two: the row 4 of six is refined in the first execution and invalid in the second.

Status: **partial**. Proved: the scores are the same, and the refined disparities too at the pixels which have computed points on each side, half a window away, in both executions or in none; elsewhere the execution without such points gives the invalid value. False otherwise (C155_false): with one row out of two the last computed row has no point after it and is invalid, while it is refined when all the rows are computed.

Theorems: `C155_steps_flow_partial`, `C155_false`

### C156 More pairs of disparities never worsen the score, with an optical flow

(model: Main.main, OpticalFlow; spec: Spec/Flowed, Spec/Wider (Nested)) from the pixel-level description of C96 (flow_rasters): the optical flow keeps the score of the best pair; a pair asked by the first execution is asked by the second, with the same displaced image (slab_finer) and the same cost whatever the limits of the cost volumes (cost_wider). The example holds for all the images: pixels then halves of pixels, one then two pixels on each side.

Status: **proved**. For window costs and a linear resampling of the rows (contract on scipy zoom). The refined disparities may be lost with a finer factor: the claim is about the scores.

Theorems: `C156_flow_never_worse`, `slab_finer`, `cost_wider`

### C157 The steps only choose the pixels, with an interpolation

(model: Main.main, Interpolation; spec: Spec/InterpLocal (Interpolated), Spec/Steps (AgreeOnCommon)) from the pixel-level description of Stages.interpolated: the images read are the same (Stages.read_images), the explored pairs are the same (extent_same, lattice_same), the costs at a pixel depend on the limits at that pixel only, then the best pair is unique and the interpolation of equal cost matrices is equal (interp_same). The example holds for all the images: one row out of two and one column out of three give the values of the whole rasters there.

Status: **proved**. For window costs. Contracts on interp2d and minimize: minimize stays within its bounds, interp2d only reads what its arguments hold. Unlike the optical flow (C155_false), the steps do not change the refined values.

Theorems: `C157_steps_interpolation`

### C158 The invalid value only marks pixels, with an interpolation

(model: Main.main, Interpolation; spec: Spec/InterpLocal (Interpolated), Spec/Usable (Comparable)) as C157, with two invalid values: a comparable pair of the intervals has a cost (window_exists), hence the two best pairs are the same whatever the invalid values; the pixels with NaN are those without any cost read (interp_number). C158_false: no data in the first rows of the right image but at the margin of three rows; a minimisation which stays at its start, put in the bounds, gives the row disparity 1 with the invalid value 1 and -3 with the default -9999.

Status: **partial**. Proved: the same pixels have NaN, and the values are the same at every pixel where two windows displaced by a pair of its intervals can be compared. False elsewhere: where only the margins of the refinement hold a cost, the minimisation starts from the invalid value, and the disparities written depend on it.

Theorems: `C158_invalid_interpolation_partial`, `C158_false`, `interp_number`

### C159 The invalid value only marks pixels, with an optical flow

(model: Main.main, OpticalFlow; spec: Spec/Flowed, Spec/FlowMain, Spec/OpticalFlow (trajectory), Marked and Solvable beside the theorem) as C155, with two invalid values: the best pairs are the same when a pair has a cost; a disparity which is neither invalid value gives the same shift (startShift_other); the trajectories are the same while the least squares give a motion (induction on the iterations, trajectory_solvable). C159_far_flow_partial: without a score both flows start from their invalid value on the same window; they end both with NaN or both with a number (trajectory_both), which stays out of the interval (trajectory_close). C159_false: a right image one row below; the pixel of row 2 and column 2 has the row disparity 1 with the invalid value -9999 and 2 with the invalid value 1.

Status: **partial**. Proved: the scores are the same or each is its invalid value; the refined disparities too, at every pixel which has a score, whose left window has a least squares solution, when no invalid value is a number of its intervals. C159_far_flow_partial: also at the pixels without a score, when the invalid values are NaN or at least as far from the intervals as there are iterations. False otherwise: a disparity equal to the invalid value is taken for a pixel without disparity, and its flow starts from another window.

Theorems: `C159_invalid_flow_partial`, `C159_far_flow_partial`, `C159_false`, `trajectory_solvable`, `startShift_other`, `trajectory_both`

### C160 The invalid value only marks pixels, with a dichotomy

(model: Main.main, Dichotomy; spec: Spec/Dichotomised, Spec/Searched, Marked of C159) as C120, with two invalid values: the best pairs are the same when a pair has a cost, a search from disparities which are neither invalid value is a search for both (searched_other), and searches on the same costs end at the same point (searched_moved). C160_false: a right image one row below; the pixel of row 2 and column 2 has the score 0 with the invalid value -9999 and NaN with the invalid value 1.

Status: **partial**. Proved: at every pixel such that no invalid value is a number of its intervals, the same score (NaN without a pair) and the same disparities or each invalid value. False otherwise: a disparity equal to the invalid value loses its score and is not refined.

Theorems: `C160_invalid_dichotomy_partial`, `C160_false`, `searched_other`

## 8. Axioms of each theorem

Obtained with `#print axioms` on every theorem of MANIFEST.json. No other axiom appears.

**Classical.choice, Quot.sound, propext** (444 theorems)

`C01_extrema_split_col`, `C01_extrema_split_row`, `C01_get_score`, `C01_arg_split`, `C01_any_split`, `C01_pixel_alone`, `C01_as_single_pixels`, `C02_score_is_best`, `empty_range_raises`, `maps_exist`, `C03_invalid_iff_no_candidate`, `C03_invalid_iff`, `C04_col_range_exact`, `C04_row_range_exact`, `C04_margins_never_selected`, `C04_after_matching_cost`, `C05_false_with_ties`, `C05_pair_attains_score_partial`, `C05_unique_best_partial`, `C06_lowest_disparity`, `C07_cost_volumes_unchanged`, `C08_row_masking_exact`, `C08_col_masking_exact`, `C08_row_masking_index_error`, `C09_configured_range`, `C09_own_range`, `C09_variable_ranges_with_step_raise`, `C09_false_for_other_widths`, `C10_right_range_opposite`, `C10_left_range_centred`, `C100_values_only`, `C101_finer_never_worse`, `slab_finer`, `C102_estimation_is_its_result`, `est_sample`, `side_completed`, `C103_given_exactly_partial`, `C103_false`, `window_exists`, `C104_local`, `window_local`, `displaced_local`, `C105_runs_exactly_roi`, `dispBounds_hull`, `crop_constant`, `zone_near`, `C106_transposed`, `whole_rasters`, `window_whole`, `wholeCost_transposed`, `C107_goes_back`, `C108_mirrored_partial`, `C108_false`, `reaches_mirrored`, `turned_range`, `C109_regraded`, `sad_affine`, `ssd_affine`, `sumOf_affine`, `C11_source_is_tight_hull`, `C110_overlap`, `C111_more_nodata`, `C112_nodata_value_partial`, `C112_false`, `full_rasters`, `C113_interp_against_not`, `C114_brightness`, `window_seen`, `displaced_seen`, `affine_lerp`, `best_seen`, `C115_mirrored`, `displaced_mirrored`, `sample_mirrored`, `window_mirrored`, `interval_mirrored`, `best_moved`, `C116_overlap`, `displaced_at`, `displaced_scene`, `window_scene`, `C117_tiles_agree_partial`, `C117_false`, `Stages.tile`, `asked_range_at`, `C118_exchanged_fractions_partial`, `C118_false`, `window_ok_clear`, `window_transposed`, `C119_searched_files`, `C119_sinc_kernel`, `method_searched`, `bestMove_unique`, `path_unique`, `searchedPixel_unique`, `bicubic_kernel`, `sinc_weights`, `C12_decomposition`, `C12_sampled_at_label`, `C120_more_iterations`, `path_onward`, `path_near`, `searched_further`, `C121_local_dichotomy`, `searched_scaled`, `path_scaled`, `filtered_scaled`, `node_inside`, `C122_brightness_dichotomy`, `C123_quadratic_optimum`, `filtered_bowl`, `keys_quadratic`, `path_bowl`, `bowl_winner`, `searched_bowl`, `C124_flow_keeps`, `C124_dichotomy_keeps_partial`, `C124_dichotomy_moves`, `translated_best`, `flow_kept`, `path_kept`, `C125_runs_exactly_roi`, `C126_runs_exactly_estimated`, `C126_needs_disparities`, `C127_brightness_flow`, `C128_local_flow`, `C129_transposed_flow`, `C13_axes_full_lattice`, `C130_mirrored_flow`, `C131_overlap_flow`, `C132_overlap_dichotomy`, `C133_zones_agree_dichotomy_partial`, `C133_false`, `C134_transposed_dichotomy_partial`, `C134_false`, `C135_mirrored_dichotomy`, `C136_zones_agree_flow_partial`, `C136_false`, `C137_nodata_value_dichotomy`, `C138_nodata_value_flow_partial`, `C138_false`, `C139_report_read_partial`, `C139_report_file_partial`, `C139_false`, `readJson_dump`, `C14_row_shift`, `C140_wider_dichotomy_partial`, `C140_false`, `searched_nested`, `C141_wider_flow`, `inside_nested`, `best_nested`, `C142_more_iterations_flow`, `trajectory_more`, `C143_local_interpolation`, `filled_unique`, `interp_same`, `C144_overlap_interpolation`, `interp_moved`, `C145_zones_agree_interpolation_partial`, `C145_false`, `C146_brightness_interpolation`, `interpolated_agree`, `C147_nodata_value_interpolation`, `C148_transposed_interpolation_partial`, `C148_false`, `C149_config_file_partial`, `C149_standard_read`, `C149_other_refused`, `C149_nan_not_standard`, `C149_false`, `load_iff`, `standard_iff`, `C15_false_mask_lost`, `C15_nodata_stays_invalid_partial`, `C150_mirrored_interpolation_partial`, `C150_false`, `C151_more_nodata_interpolation`, `C151_more_nodata_dichotomy`, `wholeCost_less`, `C152_more_nodata_flow_partial`, `C152_false`, `C153_wider_keeps_interpolated_partial`, `C153_false`, `C154_given_dichotomy`, `C154_given_interpolation_partial`, `C154_given_flow_partial`, `C154_false`, `C154_flow_false`, `C155_steps_flow_partial`, `C155_false`, `C156_flow_never_worse`, `cost_wider`, `C157_steps_interpolation`, `C158_invalid_interpolation_partial`, `C158_false`, `interp_number`, `C159_invalid_flow_partial`, `C159_far_flow_partial`, `C159_false`, `C16_cell_any_step`, `C16_cell_own_range`, `C16_cell_step_one`, `C16_cell_constant`, `C16_nan_when_outside`, `volumes_exist_step_one`, `volumes_exist_constant`, `windowCost_contract`, `C160_invalid_dichotomy_partial`, `C160_false`, `C17_coordinates_without_roi`, `C17_coordinates_with_roi`, `C18_margins_cover_disparities`, `C19_roi_exactly`, `C19_after_matching_cost`, `C20_same_cost_partial`, `C20_roi_cost_is_full_cost`, `C20_false`, `C21_with_roi`, `C21_coordinates_without_roi`, `C22_false_without_roi`, `C23_decode`, `C23_valid_iff_empty`, `C23_injective`, `C24_cells_exact_partial`, `C24_valid_iff_partial`, `C24_after_matching_cost_partial`, `C25_displaced`, `C26_false_with_step`, `C26_border_exact_partial`, `C27_false_with_step`, `C27_outside_exact_partial`, `C28_check_iff`, `C28_run_iff`, `C29_checked_pipeline_runs`, `C30_check_rejects_suffix`, `C30_false_at_check`, `C30_run_partial`, `C31_back_to_initial`, `C32_poisoned_forever`, `C32_refused_at_first_step_partial`, `C32_run_after_refusal`, `C33_new_machine_partial`, `C33_stale_steps_are_kept`, `C34_false_at_size`, `C34_constant_partial`, `C34_grid_outlier`, `C35_pairs_partial`, `C35_mixed_raises`, `C35_false_with_estimation`, `C36_accepted_iff`, `C37_input_values_partial`, `C37_input_defaults`, `C37_false_empty_dictionary`, `C37_matching_cost_values`, `C37_optical_flow_overwrites`, `C37_pipeline_sections`, `C38_refinement`, `C38_input_section`, `C38_input_section_estimation`, `C38_roi_section`, `C39_search_range`, `C39_shift_inside`, `C39_configuration`, `C39_nan_raises`, `C40_displacement`, `C40_less_than_one_step`, `C41_lattice`, `C42_stays_in_range`, `C46_pipeline`, `C43_not_worse_partial`, `C43_false_ties`, `C43_false_invalid_in_range`, `C44_disparities_kept_partial`, `C44_score_kept_partial`, `C44_false_score`, `search_selects`, `C45_no_move_partial`, `C45_flat_partial`, `C45_false_ties`, `C46_windows_inside`, `C46_never_raises`, `C46_bicubic_fits`, `C46_sinc_fits`, `sinc_has_coeffs`, `C47_sum_one`, `C47_impulse`, `C47_mirror`, `C47_quadratic_1d`, `C47_exact_on_biquadratics`, `C48_well_defined`, `C48_sum_one`, `C48_impulse`, `C48_row_of_table`, `C48_row_rounds_up`, `C48_constant`, `C49_integer_positions_partial`, `C49_one_value_per_position`, `C49_false_with_nan`, `bicubic_impulse`, `C49_sinc_impulse`, `C50_aligned`, `C50_total`, `C50_small_raises`, `C51_bounded`, `C51_bounded_partial`, `C51_trajectory`, `C52_inside_partial`, `C52_pipeline_partial`, `C52_one_map_only`, `C52_nan_kept`, `C52_other_range`, `C52_other_range_fails`, `C53_minimised`, `C53_total`, `C54_false`, `C54_invalid_lost`, `C54_outside_range`, `C54_invalid_refined`, `C55_mean`, `C55_std`, `C55_quantiles`, `C55_quantiles_ordered`, `C55_nothing_valid`, `C55_ratio_range`, `C55_ratio_partial`, `C55_nan_counted`, `C56_result`, `C56_once`, `C56_no_deadlock`, `C56_maxima`, `C56_exception_leaves_thread`, `C56_late_values`, `C56_values_false`, `C57_translation`, `sad_dissimilarity`, `ssd_dissimilarity`, `C57_example`, `C57_translation_similarity`, `zncc_similarity`, `C57_example_zncc`, `C58_valid_iff_cost_partial`, `C58_false`, `C59_false`, `C59_placeholder_partial`, `C60_saved_partial`, `C60_saved_false`, `C60_false`, `C60_never_accepted_again`, `C60_roi_margins`, `C61_flow_partial`, `C61_flow_raises_with_roi`, `C61_dichotomy_raises_with_step`, `C61_step_one_partial`, `C62_score_at_refined_disparities`, `C63_exact_match_partial`, `C63_subpixel_biased`, `C64_invalid_kept_partial`, `C64_invalid_refined`, `C65_identical`, `C65_plane`, `exLstsq_contract`, `C67_sign_lost`, `C68_filled`, `C68_solver`, `C69_reported_ratio`, `C70_run_composes`, `C71_history_independent_partial`, `C71_stale_maps_false`, `C72_run_near_estimation`, `C72_run_refined_near_estimation`, `C73_float_row_step_false`, `C74_accepted_disparities`, `C75_pair_ok`, `C75_created_partial`, `C75_one_row_false`, `C76_columns_sampled`, `C76_transpose`, `C77_what_is_written`, `C78_files_answer_user`, `C79_saved_configuration`, `C80_report_describes_files_partial`, `C80_false_with_roi`, `C81_accepted_runs_partial`, `C81_dichotomy_step_false`, `C81_grid_step_false`, `C81_without_disparity`, `C81_estimation_null_false`, `C81_estimation_mixed_false`, `C81_flow_small_false`, `C81_flow_roi_false`, `C81_cardinal_sine_meets`, `C82_refined_files`, `C82_refined_saved`, `C83_calls`, `C83_times`, `C84_false`, `C84_box`, `C84_one_call_partial`, `C85_false`, `C85_empty_section`, `C85_no_failure_partial`, `C86_accepted_iff`, `C86_input`, `C86_pipeline`, `disparity_iff`, `estimation_iff`, `refinement_iff`, `C87_best_pair`, `C87_best_pair_saved`, `volume_winner`, `C88_translation_found`, `sad_onlyEqual`, `ssd_onlyEqual`, `window_null`, `C89_steps_only_choose`, `BestPair.unique`, `recorded_margins`, `Stages.same_images`, `C90_same_inside_partial`, `C90_never_better`, `C90_roi_restricts`, `C90_false`, `C91_exact_disparities`, `C91_exact_refined`, `C91_bound_tight`, `dyadic_float32`, `C92_wider_never_worse`, `Stages.same_side`, `C93_refined_against_not`, `C93_moved_from_best`, `Stages.refinedWinner`, `same_images`, `C94_checked_again`, `C94_same_execution`, `C95_saved_again_iff`, `C95_saved_again`, `C95_saved_refused`, `C96_flow_files`, `subsampled_range`, `C97_interpolated_files`, `cells_all`, `C98_flow_against_not`, `C99_runs_exactly`

**Quot.sound, propext** (46 theorems)

`single_row_or_col_grid_raises`, `sumOf_orderFree`, `comparable_exchanged`, `pairs_exchanged`, `sad_symmetric`, `ssd_symmetric`, `chosen_moved`, `reaches_overlap`, `chosen_fewer`, `comparable_nodata`, `pairs_nodata`, `lin_swap`, `extent_same`, `tried_scaled`, `inside_more`, `interp_exchanged`, `interp_mirrored`, `comparable_less`, `trajectory_solvable`, `startShift_other`, `trajectory_both`, `searched_other`, `C21_without_roi`, `C21_roi_without_step_raises`, `C22_repeated_saves_without_roi`, `C22_unchanged_partial`, `C24_left_mask_with_step_raises`, `C25_subpixel_raises`, `maskOutside_spec`, `C38_disparity`, `C38_matching_cost`, `estimation_range`, `C40_unchanged`, `bicubic_has_coeffs`, `C53_own_surface`, `C54_partial`, `C54_no_cost_gives_nan`, `C55_order`, `C61_other_shape_raises`, `C66_margins_partial`, `C66_swapped`, `C67_score_at_sample_partial`, `C73_accepted_steps_partial`, `C73_wrong_steps_raise`, `matching_cost_iff`, `best_congr`

**propext** (12 theorems)

`C18_idempotent`, `C18_mixed_raises`, `C18_window_not_covered`, `C32_false`, `C33_false_on_reuse`, `C36_no_roi`, `C37_estimation_values`, `C37_disparity_values`, `C37_dichotomy_values`, `C38_estimation`, `C56_lines`, `C56_count`
