{"id": "C01", "title": "WTA result does not depend on the memory-saving split", "statement": "The disparity and score maps returned by Disparity.compute_disp_maps are, pixel by pixel, the ones obtained by reducing the whole cost volume at once: splitting the volume in blocks of 100 rows/columns never loses, duplicates or moves a pixel.", "quantifier": "every number of rows, columns, row disparities and column disparities (including sizes that are multiples of 100, smaller than 100, non-square, or zero), every cost content", "why_tests_cant": "block boundaries depend on the image size; tests use images of a few pixels, so they never cross a single block boundary, and no finite set of sizes covers all remainders", "anchors": ["pandora2d/disparity/disparity.py:Disparity.extrema_split", "pandora2d/disparity/disparity.py:Disparity.get_score", "pandora2d/disparity/disparity.py:Disparity.arg_split"]}
{"id": "C02", "title": "Score map holds the best candidate cost", "statement": "For every pixel with at least one computable candidate, the returned score is the maximum (type_measure 'max') or minimum (type_measure 'min') of the non-NaN costs of that pixel over the user's row and column disparity ranges; it is the cost of some candidate and no candidate is strictly better.", "quantifier": "every cost volume (any size, any NaN pattern), both measure types, every subpixel value and margins", "why_tests_cant": "the optimum must hold over all candidates of all pixels for arbitrary NaN patterns; tests compare with hand-made small volumes", "anchors": ["pandora2d/disparity/disparity.py:Disparity.compute_disp_maps", "pandora2d/disparity/disparity.py:Disparity.extrema_split", "pandora2d/disparity/disparity.py:Disparity.get_score"]}
{"id": "C03", "title": "A pixel is invalid exactly when it has no candidate, in all three maps at once", "statement": "compute_disp_maps writes invalid_disparity in the column map, the row map and the score map of a pixel if and only if all costs of this pixel in the user's ranges are NaN, and it does so in the three maps simultaneously; the other pixels receive a disparity of the range.", "quantifier": "every cost volume and NaN pattern, every value of invalid_disparity (including NaN), both measure types", "why_tests_cant": "an equivalence over all NaN patterns cannot be enumerated", "anchors": ["pandora2d/disparity/disparity.py:Disparity.compute_disp_maps"]}
{"id": "C04", "title": "Disparity margins are trimmed exactly", "statement": "With disparity margins and a subpixel factor, the candidates examined by compute_disp_maps are exactly those of the user's range [min,max] in each direction: no margin disparity is ever selected and no user disparity is dropped, including when the right or down margin is zero.", "quantifier": "every margins (left, up, right, down) >= 0, every subpixel in {1,2,4} (any positive integer), every user range", "why_tests_cant": "slicing with negative bounds has special cases (zero bound) depending on the combination of values; tests cover a few", "anchors": ["pandora2d/disparity/disparity.py:Disparity.compute_disp_maps", "pandora2d/matching_cost/matching_cost.py:MatchingCost.compute_cost_volumes"]}
{"id": "C05", "title": "The reported (row, column) disparity pair is the match whose cost is the reported score", "statement": "For every valid pixel the cost volume value at (row map, column map) equals the score map value.", "quantifier": "every cost volume, every valid pixel", "why_tests_cant": "the two maps are computed independently by two marginal reductions, so agreement is a statement on every possible tie pattern; random float tests practically never produce ties", "anchors": ["pandora2d/disparity/disparity.py:Disparity.compute_disp_maps"]}
{"id": "C06", "title": "Ties are broken towards the lowest disparity, per axis", "statement": "The row (resp. column) disparity returned for a valid pixel is the lowest row (resp. column) disparity of the range for which some candidate attains the score.", "quantifier": "every cost volume and both measures", "why_tests_cant": "determinism under ties must hold for all tie patterns", "anchors": ["pandora2d/disparity/disparity.py:Disparity.compute_disp_maps", "pandora2d/disparity/disparity.py:Disparity.arg_split"]}
{"id": "C07", "title": "Disparity computation leaves the cost volumes untouched", "statement": "After compute_disp_maps returns, the caller's cost volumes dataset holds exactly the values (including NaN positions) it held before, although the computation temporarily overwrites NaN with infinities, through a view when margins are present.", "quantifier": "every cost volume, margins, measure", "why_tests_cant": "aliasing between a view and its base has to be excluded for every NaN pattern; refinement later reads the same volume", "anchors": ["pandora2d/disparity/disparity.py:Disparity.compute_disp_maps"]}
{"id": "C08", "title": "Per-pixel disparity range masking is exact", "statement": "set_out_of_row/col_disparity_range_to_other_value overwrite exactly the cells whose disparity is outside the pixel's own [min,max] (and inside the global range when one is given) and leave every other cell unchanged.", "quantifier": "every cost/criteria volume, every min/max grids, every global range or none, every value written", "why_tests_cant": "pointwise statement over four dimensions with two reference ranges", "anchors": ["pandora2d/common.py:set_out_of_row_disparity_range_to_other_value", "pandora2d/common.py:set_out_of_col_disparity_range_to_other_value"]}
{"id": "C09", "title": "The chosen disparities respect each pixel's own range", "statement": "After matching cost (masking by the disparity grids) and disparity computation, a pixel is either invalid or its row and column disparities lie inside the row and column ranges configured for that very pixel.", "quantifier": "every pair of images, every min/max disparity grids, every margins and subpixel, every step", "why_tests_cant": "composition of three stages for arbitrary grids; the tested combinations of grids and steps are few", "anchors": ["pandora2d/matching_cost/matching_cost.py:MatchingCost.compute_cost_volumes", "pandora2d/common.py:set_out_of_row_disparity_range_to_other_value", "pandora2d/disparity/disparity.py:Disparity.compute_disp_maps"]}
{"id": "C10", "title": "Left and right disparity ranges are opposite", "statement": "create_datasets_from_inputs gives the right image, in both directions and at every pixel, the interval [-max,-min] when the left image has [min,max]; both intervals have width 2*range and the left one is centred on init.", "quantifier": "every integer init and range, every pair of init/range grids", "why_tests_cant": "must hold for all integers and pixels", "anchors": ["pandora2d/img_tools.py:add_disparity_grid", "pandora2d/img_tools.py:get_min_max_disp_from_dicts", "pandora2d/img_tools.py:create_datasets_from_inputs"]}
{"id": "C11", "title": "The recorded global disparity interval is the tight hull of the grid", "statement": "The row/col_disparity_source attribute written by add_disparity_grid contains the range of every pixel and both its ends are attained by some pixel.", "quantifier": "every init/range constants or grids, left and right images, every crop by a ROI", "why_tests_cant": "a universally quantified bound with attained extremes", "anchors": ["pandora2d/img_tools.py:add_disparity_grid", "pandora2d/img_tools.py:get_min_max_disp_from_dicts"]}
{"id": "C12", "title": "Subpixel row disparities are decomposed exactly", "statement": "For every row disparity d of the cost volume, the resampled right image selected and the integer shift applied satisfy floor(d) + i/subpix = d with 0 <= i < subpix, also for negative d; hence every slab is computed with the row offset it is labelled with.", "quantifier": "every integer or fractional disparity multiple of 1/subpix, negative or positive, every subpix", "why_tests_cant": "sign handling of modulo and truncation must be right for all values", "anchors": ["pandora2d/matching_cost/matching_cost.py:MatchingCost.compute_cost_volumes", "pandora2d/img_tools.py:shift_subpix_img", "pandora2d/img_tools.py:shift_disp_row_img"]}
{"id": "C13", "title": "The row disparity axis is the full requested lattice", "statement": "The disparity axes of the cost volume are strictly increasing, spaced by 1/subpix, start at min-margin and end at max+margin, and contain every multiple of 1/subpix in between exactly once.", "quantifier": "every range, margins, subpix", "why_tests_cant": "holds for all integers; boundaries are easy to get off by one", "anchors": ["pandora2d/matching_cost/matching_cost.py:MatchingCost.compute_cost_volumes"]}
{"id": "C14", "title": "Row shift addresses row r + d or no-data", "statement": "shift_disp_row_img(img, d) returns an image whose row r holds the input row r+d when this row exists and no-data elsewhere, with the mask flagging exactly the no-data pixels, unchanged shape and coordinates.", "quantifier": "every image, every integer d including |d| larger than the image", "why_tests_cant": "all shifts and sizes", "anchors": ["pandora2d/img_tools.py:shift_disp_row_img"]}
{"id": "C15", "title": "The right image's validity mask survives the row shift", "statement": "A right pixel declared invalid by the user's mask stays invalid in the shifted right image used for matching.", "quantifier": "every image, mask and shift", "why_tests_cant": "depends on the mask content", "anchors": ["pandora2d/img_tools.py:shift_disp_row_img"]}
{"id": "C16", "title": "Cost volume cells carry the cost of the displaced pair", "statement": "cost_volumes[r,c,dc,dr] is the Pandora matching cost of the left pixel (row r, col c) with the right image displaced by (dr, dc), NaN when the displaced pixel does not exist, at each computed row/column (with step and ROI) and each disparity of the axes.", "quantifier": "every pair of images, step, ROI, margins, subpix, every cell", "why_tests_cant": "four-dimensional indexing with strides, crops and margins", "anchors": ["pandora2d/matching_cost/matching_cost.py:MatchingCost.compute_cost_volumes", "pandora2d/matching_cost/matching_cost.py:MatchingCost.allocate_cost_volumes"]}
{"id": "C17", "title": "Computed coordinates follow the step and contain the ROI origin", "statement": "Rows and columns of the cost volumes are the arithmetic progression of the given step inside the image; without ROI it starts at the first pixel, with ROI it contains the ROI's first row/column.", "quantifier": "every image size, step >= 1, ROI, margins", "why_tests_cant": "modular arithmetic over all combinations of margins and steps", "anchors": ["pandora2d/matching_cost/matching_cost.py:MatchingCost.compute_cost_volumes", "pandora2d/matching_cost/matching_cost.py:MatchingCost.allocate_cost_volume_pandora"]}
{"id": "C18", "title": "ROI processing margins cover the disparity range", "statement": "get_roi_processing keeps first/last unchanged and returns margins at least as large as the previous ones and large enough for every disparity of the range to remain inside the extended ROI; applying it again changes nothing.", "quantifier": "every ROI, margins, init/range integers or grids", "why_tests_cant": "inequalities over all integers, signs included", "anchors": ["pandora2d/img_tools.py:get_roi_processing"]}
{"id": "C19", "title": "ROI results are returned on the ROI only and entirely", "statement": "remove_roi_margins keeps exactly the computed points whose row and column lie in the ROI [first,last].", "quantifier": "every ROI, margins, step, image size (ROI near the image edges included)", "why_tests_cant": "depends on modular relations between margins, step and first", "anchors": ["pandora2d/img_tools.py:remove_roi_margins"]}
{"id": "C20", "title": "A ROI run gives the same candidates as a full run", "statement": "At every point of the ROI the candidates computed with the ROI crop are the candidates of the full-image run: same disparities computable, same costs.", "quantifier": "every image, ROI, window, range", "why_tests_cant": "equality of two runs for all inputs", "anchors": ["pandora2d/img_tools.py:get_roi_processing", "pandora2d/matching_cost/matching_cost.py:MatchingCost.compute_cost_volumes"]}
{"id": "C21", "title": "Saved georeferencing points at the right ground location", "statement": "In the saved maps, output pixel (i,j) is located by the written transform at the location of input pixel (row[i], col[j]), for every ROI and step.", "quantifier": "every affine transform, ROI, step, output pixel", "why_tests_cant": "equality of affine maps for all parameters", "anchors": ["pandora2d/common.py:save_dataset", "pandora2d/common.py:adjust_georeferencement", "pandora2d/common.py:set_pixel_size"]}
{"id": "C22", "title": "Saving does not change the dataset", "statement": "save_dataset leaves the attributes of the dataset passed by the caller unchanged, so saving again writes the same georeferencing.", "quantifier": "every dataset, configuration and number of saves", "why_tests_cant": "history property: any number of saves", "anchors": ["pandora2d/common.py:save_dataset", "pandora2d/common.py:adjust_georeferencement"]}
{"id": "C23", "title": "Criteria flags are independent bits", "statement": "Every criteria combination decodes to exactly the set of conditions that was recorded; VALID is the empty combination.", "quantifier": "all combinations of flags", "why_tests_cant": "needs all pairs and combinations", "anchors": ["pandora2d/constants.py:Criteria"]}
{"id": "C24", "title": "A cell is VALID exactly when no criterion applies", "statement": "In the array returned by get_criteria_dataarray a cell is VALID iff its window is inside the left image, contains no left no-data, the left pixel is not masked, the right pixel exists, is not masked and its window contains no no-data, and the disparity lies in the pixel's range.", "quantifier": "every pair of images and masks, window sizes, disparity axes, grids, cells", "why_tests_cant": "an equivalence over all masks and disparities", "anchors": ["pandora2d/criteria.py:get_criteria_dataarray"]}
{"id": "C25", "title": "Right-image criteria are read at the displaced pixel", "statement": "apply_right_criteria_mask adds the flag to cell (r,c,dc,dr) iff the right mask is set at (r+dr, c+dc) inside the image, and preserves other flags.", "quantifier": "every mask, every integer disparities including those larger than the image", "why_tests_cant": "slices with negative and zero bounds", "anchors": ["pandora2d/criteria.py:apply_right_criteria_mask"]}
{"id": "C26", "title": "Left border flag marks exactly the border points", "statement": "mask_border flags exactly the points closer to the image border than the window half-size.", "quantifier": "every image size, offset, step", "why_tests_cant": "depends on the step/offset combination", "anchors": ["pandora2d/criteria.py:mask_border"]}
{"id": "C27", "title": "Disparities leaving the right image are flagged", "statement": "mask_disparity_outside_right_image flags exactly the cells whose displaced point falls outside the right image shrunk by the window offset, and preserves other flags.", "quantifier": "every coordinates, disparities, offsets", "why_tests_cant": "all disparities and sizes", "anchors": ["pandora2d/criteria.py:mask_disparity_outside_right_image"]}
{"id": "C28", "title": "Only well-formed pipelines are accepted", "statement": "check_conf / run of the machine succeed on a sequence of steps iff it is a prefix of: optional estimation, matching_cost, disparity, then any number of refinements.", "quantifier": "every finite sequence of step names", "why_tests_cant": "infinitely many sequences", "anchors": ["pandora2d/state_machine.py:Pandora2DMachine"]}
{"id": "C29", "title": "A pipeline that passes the check also runs", "statement": "Every sequence of steps accepted at check time triggers the same sequence of transitions at run time, each step's processing executing exactly once and in order.", "quantifier": "every sequence of steps", "why_tests_cant": "two separate transition tables must agree on all sequences", "anchors": ["pandora2d/state_machine.py:Pandora2DMachine.check_conf", "pandora2d/state_machine.py:Pandora2DMachine.run"]}
{"id": "C30", "title": "Repeated steps with a suffix", "statement": "A step name written with a suffix ('refinement.2') is treated as the step itself, at check as at run time.", "quantifier": "every suffixed sequence", "why_tests_cant": "all sequences", "anchors": ["pandora2d/state_machine.py:Pandora2DMachine.run", "pandora2d/state_machine.py:Pandora2DMachine.check_conf"]}
{"id": "C31", "title": "The machine comes back to its initial state", "statement": "After a successful check or run the machine has the state and transitions it had at creation, so it can check or run again any number of times.", "quantifier": "every history of successful checks and runs", "why_tests_cant": "histories are unbounded", "anchors": ["pandora2d/state_machine.py:Pandora2DMachine.run_exit", "pandora2d/state_machine.py:Pandora2DMachine.check_conf", "pandora2d/state_machine.py:Pandora2DMachine.run_prepare"]}
{"id": "C32", "title": "A rejected pipeline does not poison the machine", "statement": "After a check that raised, checking a correct pipeline with the same machine succeeds.", "quantifier": "every rejected sequence followed by every correct one", "why_tests_cant": "history property with failures at every point", "anchors": ["pandora2d/state_machine.py:Pandora2DMachine.check_conf"]}
{"id": "C33", "title": "The checked configuration describes the checked pipeline only", "statement": "The configuration and margins produced by a check contain exactly the steps of the pipeline being checked, whatever the machine checked before.", "quantifier": "every history of checks", "why_tests_cant": "history property", "anchors": ["pandora2d/state_machine.py:Pandora2DMachine.matching_cost_check_conf", "pandora2d/state_machine.py:Pandora2DMachine.refinement_check_conf"]}
{"id": "C34", "title": "Disparity ranges outside the image are rejected", "statement": "check_disparity_ranges_are_inside_image accepts a disparity iff at least one pixel has a candidate inside the image.", "quantifier": "every init, range, image size", "why_tests_cant": "boundary of an inequality over all integers", "anchors": ["pandora2d/check_configuration.py:check_disparity_ranges_are_inside_image"]}
{"id": "C35", "title": "Disparity inputs must be given in pairs of one kind", "statement": "The input section is accepted only if both row and column disparities are present and both are constants (init/range integers) or both are grids, unless an estimation step is present in which case neither may be given.", "quantifier": "every combination of keys and value kinds", "why_tests_cant": "all combinations", "anchors": ["pandora2d/check_configuration.py:check_disparity", "pandora2d/check_configuration.py:check_input_section", "pandora2d/img_tools.py:check_disparities"]}
{"id": "C36", "title": "ROI sections are coherent", "statement": "check_roi_section accepts exactly the ROI with non-negative integers and first <= last in both directions.", "quantifier": "every ROI dictionary", "why_tests_cant": "all values", "anchors": ["pandora2d/check_configuration.py:check_roi_section", "pandora2d/check_configuration.py:check_roi_coherence"]}
{"id": "C37", "title": "User values are never overridden by defaults", "statement": "A value given by the user in a checked section is returned unchanged; only missing keys receive their default.", "quantifier": "every section", "why_tests_cant": "all key subsets and values", "anchors": ["pandora2d/check_configuration.py:check_input_section", "pandora2d/disparity/disparity.py:Disparity.check_conf", "pandora2d/refinement/dichotomy.py:Dichotomy.check_conf", "pandora2d/refinement/optical_flow.py:OpticalFlow.check_conf", "pandora2d/estimation/phase_cross_correlation.py:PhaseCrossCorrelation.check_conf"]}
{"id": "C38", "title": "Checking a checked configuration changes nothing", "statement": "Step-level configuration checks are idempotent.", "quantifier": "every accepted configuration", "why_tests_cant": "all configurations", "anchors": ["pandora2d/refinement/dichotomy.py:Dichotomy.check_conf", "pandora2d/disparity/disparity.py:Disparity.check_conf", "pandora2d/refinement/optical_flow.py:OpticalFlow.check_conf", "pandora2d/estimation/phase_cross_correlation.py:PhaseCrossCorrelation.check_conf"]}
{"id": "C39", "title": "The estimated search range contains the estimated shift", "statement": "The disparity range written after estimation is an integer centre within half a pixel of the opposite of the estimated shift, and the shift is strictly inside the search range; the configuration for the rest of the run holds this range in both directions.", "quantifier": "every real shift, every accepted range", "why_tests_cant": "rounding (half to even) at all values", "anchors": ["pandora2d/estimation/phase_cross_correlation.py:PhaseCrossCorrelation.compute_estimation", "pandora2d/estimation/estimation.py:AbstractEstimation.update_cfg_with_estimation"]}
{"id": "C40", "title": "Dichotomy moves by less than one input step", "statement": "The refined disparity differs from the initial one by at most 1/subpix - 2^-iterations (strictly less than one disparity step) in each direction.", "quantifier": "every cost volume, pixel, subpix in {1,2,4}, number of iterations", "why_tests_cant": "induction over the number of iterations", "anchors": ["pandora2d/refinement/dichotomy.py:Dichotomy.refinement_method", "pandora2d/refinement/dichotomy.py:search_new_best_point"]}
{"id": "C41", "title": "Dichotomy results are on the expected lattice", "statement": "The displacement produced by the dichotomy is a multiple of 2^-iterations in both directions.", "quantifier": "every cost volume, pixel, iterations", "why_tests_cant": "induction", "anchors": ["pandora2d/refinement/dichotomy.py:Dichotomy.refinement_method"]}
{"id": "C42", "title": "Dichotomy stays inside the searched range", "statement": "The refined disparities stay within the minimum and maximum disparities of the pixel.", "quantifier": "every pixel whose initial disparity is on the disparity lattice and within its range", "why_tests_cant": "all positions and iteration counts", "anchors": ["pandora2d/refinement/dichotomy.py:Dichotomy.refinement_method"]}
{"id": "C43", "title": "Dichotomy never degrades the cost", "statement": "The score returned by the dichotomy is never worse than the initial score, and is never replaced by NaN.", "quantifier": "every cost volume and filter", "why_tests_cant": "induction with NaN semantics", "anchors": ["pandora2d/refinement/dichotomy.py:search_new_best_point", "pandora2d/refinement/dichotomy.py:Dichotomy.refinement_method"]}
{"id": "C44", "title": "Dichotomy leaves invalid and edge pixels alone", "statement": "Pixels with NaN score or whose disparity is at an end of its range are returned unchanged in the three maps.", "quantifier": "every pixel", "why_tests_cant": "all pixels and ranges", "anchors": ["pandora2d/refinement/dichotomy.py:Dichotomy.refinement_method"]}
{"id": "C45", "title": "Dichotomy does not move without improvement", "statement": "When no neighbouring candidate is strictly better, the point does not move.", "quantifier": "every cost surface", "why_tests_cant": "all tie patterns", "anchors": ["pandora2d/refinement/dichotomy.py:search_new_best_point", "pandora2d/refinement/dichotomy.py:all_same"]}
{"id": "C46", "title": "Resampling windows stay inside the cost surface", "statement": "During the dichotomy every resampling window requested from the filter lies entirely inside the pixel's cost surface (disparity margins included), so that no out-of-bounds or truncated slice is used.", "quantifier": "every pixel not skipped, each iteration, both filters", "why_tests_cant": "reachability of positions through all iterations", "anchors": ["pandora2d/refinement/dichotomy.py:Dichotomy.refinement_method", "pandora2d/interpolation_filter/interpolation_filter.py:AbstractFilter.interpolate", "pandora2d/interpolation_filter/bicubic.py:Bicubic.margins", "pandora2d/interpolation_filter/cardinal_sine.py:CardinalSine.margins"]}
{"id": "C47", "title": "Bicubic filter partitions unity, interpolates and is exact on quadratics", "statement": "The bicubic coefficients sum to 1 for every fractional shift, are (0,1,0,0) at 0, are mirrored under t -> 1-t, and reproduce constant, linear and quadratic signals exactly, in 1-D and in 2-D.", "quantifier": "every fractional shift, every polynomial signal of the class", "why_tests_cant": "identities over all reals", "anchors": ["pandora2d/interpolation_filter/bicubic.py:Bicubic.get_coeffs", "pandora2d/interpolation_filter/interpolation_filter.py:AbstractFilter.apply"]}
{"id": "C48", "title": "Cardinal sine filter partitions unity and interpolates", "statement": "The cardinal sine coefficients are well defined (no division by zero), sum to 1 for each fractional shift of the table and are the unit impulse at 0; the row chosen in the table is the one of the requested fractional part.", "quantifier": "every filter half size, every fractional shift of the dichotomy", "why_tests_cant": "real-valued identities for all sizes", "anchors": ["pandora2d/interpolation_filter/cardinal_sine.py:CardinalSine.compute_coefficient_table", "pandora2d/interpolation_filter/cardinal_sine.py:CardinalSine.get_coeffs"]}
{"id": "C49", "title": "Interpolation is exact at integer positions", "statement": "interpolate returns the sample itself at integer positions for both filters, and the output list has one value per requested position, in order.", "quantifier": "every image, every positions", "why_tests_cant": "all positions", "anchors": ["pandora2d/interpolation_filter/interpolation_filter.py:AbstractFilter.interpolate", "pandora2d/interpolation_filter/interpolation_filter.py:AbstractFilter.apply"]}
{"id": "C50", "title": "Optical flow maps keep the shape and alignment of their input", "statement": "The refined maps have the shape of the initial maps, each refined value is written at the pixel it was computed for, and the border pixels that cannot be refined are set to the invalid value.", "quantifier": "every image size, window, step", "why_tests_cant": "index arithmetic over all sizes and steps", "anchors": ["pandora2d/refinement/optical_flow.py:OpticalFlow.refinement_method", "pandora2d/refinement/optical_flow.py:OpticalFlow.reshape_to_matching_cost_window"]}
{"id": "C51", "title": "Optical flow displacement is bounded by the number of iterations", "statement": "Each iteration moves a pixel by at most one pixel per axis, so the refined disparity differs from the initial one by at most the number of iterations.", "quantifier": "every image content, number of iterations", "why_tests_cant": "induction over iterations for any gradient content", "anchors": ["pandora2d/refinement/optical_flow.py:OpticalFlow.refinement_method", "pandora2d/refinement/optical_flow.py:OpticalFlow.lucas_kanade_core_algorithm", "pandora2d/refinement/optical_flow.py:OpticalFlow.optical_flow"]}
{"id": "C52", "title": "Optical flow results are inside the range or invalid", "statement": "After refinement each of the row and column values of a pixel is strictly inside its own disparity range or equal to the invalid value, and a pixel is invalid in both maps or in none.", "quantifier": "every pixel, every grids", "why_tests_cant": "all values", "anchors": ["pandora2d/refinement/optical_flow.py:OpticalFlow._invalid_out_of_grid_disparities", "pandora2d/refinement/optical_flow.py:OpticalFlow.refinement_method"]}
{"id": "C53", "title": "Interpolation refinement assigns each result to its own pixel", "statement": "The refined value of pixel (r,c) is computed from the cost surface of pixel (r,c), whatever the shape of the image.", "quantifier": "every image shape and disparity axes", "why_tests_cant": "transposition/reshape correctness for all shapes", "anchors": ["pandora2d/refinement/interpolation.py:Interpolation.refinement_method", "pandora2d/refinement/interpolation.py:Interpolation.compute_cost_matrix"]}
{"id": "C54", "title": "Interpolation refinement keeps invalid pixels invalid", "statement": "A pixel without candidates keeps the invalid disparity after the interpolation refinement and refined disparities lie inside the user's range.", "quantifier": "every pixel and cost surface", "why_tests_cant": "all NaN patterns", "anchors": ["pandora2d/refinement/interpolation.py:Interpolation.compute_cost_matrix", "pandora2d/refinement/interpolation.py:Interpolation.refinement_method"]}
{"id": "C55", "title": "Statistics describe the valid pixels", "statement": "compute_statistics returns the ratio of valid pixels (between 0 and 1) and mean, deviation and quantiles of exactly the pixels different from the invalid value; quantiles are ordered and lie between the minimum and maximum; the result does not depend on pixel order.", "quantifier": "every map, every invalid value including NaN", "why_tests_cant": "all maps", "anchors": ["pandora2d/statistics.py:compute_statistics"]}
{"id": "C56", "title": "Profiling does not alter results", "statement": "A function wrapped by mem_time_profile returns what the wrapped function returns, once, and the report line counts the call.", "quantifier": "every function, schedule of the memory thread", "why_tests_cant": "depends on thread schedule", "anchors": ["pandora2d/profiling.py:mem_time_profile", "pandora2d/profiling.py:MemProf"]}
{"id": "C57", "title": "A pure translation is recovered", "statement": "If the right image is the left image displaced by (dr, dc) in the ranges then with a distance measure (sad/ssd) the score of every interior pixel is 0, with a correlation (zncc) the score of every interior pixel whose window is not constant is 1, and (dr,dc) is the returned pair whenever no other candidate has this cost.", "quantifier": "every image, window and translation in range", "why_tests_cant": "all images", "anchors": ["pandora2d/__init__.py:run", "pandora2d/matching_cost/matching_cost.py:MatchingCost.compute_cost_volumes", "pandora2d/disparity/disparity.py:Disparity.compute_disp_maps"]}
{"id": "C58", "title": "Criteria and costs agree", "statement": "A candidate is flagged as computable by the criteria data array (no flag) exactly when its cost in the cost volumes is not NaN, at every subpixel precision.", "quantifier": "every pair of images and masks, window, range, subpixel factor", "why_tests_cant": "two independent code paths (Pandora's masking and Pandora2D's criteria) must agree on all masks", "anchors": ["pandora2d/criteria.py:get_criteria_dataarray", "pandora2d/matching_cost/matching_cost.py:MatchingCost.compute_cost_volumes"]}
{"id": "C59", "title": "ROI margins cover the estimated disparities", "statement": "When a ROI and an estimation step are both configured, the zone read around the ROI covers every ROI pixel displaced by any disparity of the estimated range.", "quantifier": "every ROI, user configuration, shift", "why_tests_cant": "depends on the order of two steps and on the magnitude of the shift", "anchors": ["pandora2d/__init__.py:main", "pandora2d/img_tools.py:get_roi_processing", "pandora2d/estimation/phase_cross_correlation.py:PhaseCrossCorrelation.compute_estimation"]}
{"id": "C60", "title": "A completed configuration can be used again", "statement": "The configuration completed and saved by a run (estimated shifts, ROI margins) is accepted by the checks when given as user configuration of another run.", "quantifier": "every accepted configuration, every shift", "why_tests_cant": "needs the composition of the run with the checks for all configurations", "anchors": ["pandora2d/__init__.py:main", "pandora2d/estimation/estimation.py:AbstractEstimation.update_cfg_with_estimation", "pandora2d/check_configuration.py:check_roi_section"]}
{"id": "C61", "title": "Refinement works with every accepted step", "statement": "For every step accepted by the configuration checks, the refinement methods run without error on the cost volumes and maps computed with this step.", "quantifier": "every accepted step, image size, filter", "why_tests_cant": "all steps and image sizes, composition of three steps of the pipeline", "anchors": ["pandora2d/refinement/dichotomy.py:Dichotomy.refinement_method", "pandora2d/refinement/optical_flow.py:OpticalFlow.refinement_method", "pandora2d/state_machine.py:Pandora2DMachine.refinement_run"]}
{"id": "C62", "title": "Refined maps agree with each other", "statement": "After the dichotomy the score of a pixel is the value given by the filter at the position of its refined disparities in its cost surface (or the cost at its disparities when it did not move).", "quantifier": "every cost volume, filter, subpixel factor, number of iterations", "why_tests_cant": "three maps updated in place through all the iterations", "anchors": ["pandora2d/refinement/dichotomy.py:search_new_best_point", "pandora2d/refinement/dichotomy.py:Dichotomy.refinement_method"]}
{"id": "C63", "title": "Optical flow is relative to the window it compared", "statement": "When the left window and the window of the right image at the initial disparity of a pixel are identical, and this disparity is strictly inside the range, the optical flow leaves the disparity unchanged, for integer and subpixel initial disparities.", "quantifier": "every image, window, number of iterations, subpixel factor", "why_tests_cant": "all images and numbers of iterations; the subpixel case depends on a truncation", "anchors": ["pandora2d/refinement/optical_flow.py:OpticalFlow.reshape_to_matching_cost_window", "pandora2d/refinement/optical_flow.py:OpticalFlow.refinement_method"]}
{"id": "C64", "title": "Optical flow keeps invalid pixels invalid", "statement": "A pixel which has the invalid value in both maps before the optical flow has it after.", "quantifier": "every image, range and invalid value, NaN included", "why_tests_cant": "the invalid value is moved like a disparity and restored by the range check: all values and ranges", "anchors": ["pandora2d/refinement/optical_flow.py:OpticalFlow.refinement_method", "pandora2d/refinement/optical_flow.py:OpticalFlow._invalid_out_of_grid_disparities"]}
{"id": "C65", "title": "The Lucas-Kanade step has the announced sign and axes", "statement": "Identical windows give a zero motion; on a plane displaced along its gradient the motion returned is (row motion, column motion) with right(i, j) = left(i + row motion, j + column motion).", "quantifier": "every window size, plane, displacement, finite window content", "why_tests_cant": "sign and axis order for all the contents, given the least squares contract", "anchors": ["pandora2d/refinement/optical_flow.py:OpticalFlow.lucas_kanade_core_algorithm"]}
{"id": "C66", "title": "The margins of the optical flow follow the steps of their axis", "statement": "The left and right margins are the half window times the column step, the up and down margins the half window times the row step.", "quantifier": "every window size and step", "why_tests_cant": "only visible with two different steps", "anchors": ["pandora2d/refinement/optical_flow.py:OpticalFlow.margins"]}
{"id": "C67", "title": "The interpolation refinement keeps the sign of the score", "statement": "The score written by the interpolation refinement is the interpolated matching cost at the refined disparity, in particular the cost of the candidate when the refined disparity is a sample of the cost surface.", "quantifier": "every cost surface, both measure types, every behaviour of the solver", "why_tests_cant": "negative similarities (zncc) are rare in test data, and the absolute value taken at the end hides a wrong sign on all others", "anchors": ["pandora2d/refinement/interpolation.py:Interpolation.compute_cost_matrix"]}
{"id": "C68", "title": "Missing costs are filled between the known ones", "statement": "Before the interpolation the known costs of the surface are unchanged and every NaN is replaced by a value between the lowest and the highest known costs, so that no NaN reaches the solver.", "quantifier": "every cost surface with at least one known cost, every NaN pattern", "why_tests_cant": "np.interp is called with repeated abscissas; the result must stay in the hull for all NaN patterns", "anchors": ["pandora2d/refinement/interpolation.py:Interpolation.compute_cost_matrix"]}
{"id": "C69", "title": "The reported ratios count the pixels having a candidate", "statement": "In the report of a run without refinement, the valid pixel ratio of the row map and the one of the column map are both the number of pixels having at least one computable candidate divided by the number of pixels.", "quantifier": "every cost volume, invalid value outside the range (NaN included), measure", "why_tests_cant": "composition of the disparity computation and of the statistics, for all NaN patterns", "anchors": ["pandora2d/reporting.py:report_disparities", "pandora2d/statistics.py:compute_statistics", "pandora2d/disparity/disparity.py:Disparity.compute_disp_maps"]}
{"id": "C70", "title": "A run is the composition of its steps", "statement": "Running a complete pipeline (optional estimation, matching cost, disparity, any refinements) on two images returns the maps obtained by applying the step functions in order to the output of the previous one, or the exception of the first step which raises; after a successful run the machine is back in its initial state.", "quantifier": "every pair of images, ROI, configuration of the steps, number and kind of refinements, names with suffixes", "why_tests_cant": "data flows through attributes of the machine set by callbacks; tests run a few pipelines only", "anchors": ["pandora2d/state_machine.py:Pandora2DMachine.run", "pandora2d/state_machine.py:Pandora2DMachine.estimation_run", "pandora2d/state_machine.py:Pandora2DMachine.matching_cost_run", "pandora2d/state_machine.py:Pandora2DMachine.disp_maps_run", "pandora2d/state_machine.py:Pandora2DMachine.refinement_run", "pandora2d/__init__.py:run"]}
{"id": "C71", "title": "The result of a run does not depend on the earlier runs of the machine", "statement": "The same images and configuration give the same result on a new machine and on a machine which already ran.", "quantifier": "every sequence of step names and configurations, every earlier state of the machine's attributes", "why_tests_cant": "stale attributes only show with a pipeline which does not overwrite them", "anchors": ["pandora2d/state_machine.py:Pandora2DMachine.run_prepare", "pandora2d/state_machine.py:Pandora2DMachine.run_exit", "pandora2d/__init__.py:run"]}
{"id": "C72", "title": "With an estimation the disparities stay near the estimated displacement", "statement": "After a whole run with an estimation step, each valid row (column) disparity is within range + 1/2 of the estimated row (column) displacement, without refinement and with a dichotomy.", "quantifier": "every pair of images, estimated shifts, ranges, steps, subpix, ROI", "why_tests_cant": "composition of four stages with a rounding and a change of sign", "anchors": ["pandora2d/__init__.py:run", "pandora2d/estimation/estimation.py:AbstractEstimation.update_cfg_with_estimation", "pandora2d/img_tools.py:add_disparity_grid", "pandora2d/disparity/disparity.py:Disparity.compute_disp_maps", "pandora2d/refinement/dichotomy.py:Dichotomy.refinement_method"]}
{"id": "C73", "title": "Accepted steps are positive integers", "statement": "The step of an accepted matching cost section is a list of two positive integers; every other value is rejected.", "quantifier": "every JSON value", "why_tests_cant": "the schema only compares the values with one; tests try a few lists of integers", "anchors": ["pandora2d/schema.py:STEP_SCHEMA", "pandora2d/matching_cost/matching_cost.py:MatchingCost.check_conf"]}
{"id": "C74", "title": "Accepted disparities are accepted again at the creation of the datasets", "statement": "Every input section accepted by the configuration check passes the checks of the disparities made when the datasets are created.", "quantifier": "every user dictionary, disk content", "why_tests_cant": "two independent implementations of the same rule must agree on every dictionary", "anchors": ["pandora2d/check_configuration.py:check_input_section", "pandora2d/img_tools.py:check_disparities", "pandora2d/img_tools.py:check_disparity_types"]}
{"id": "C75", "title": "Datasets of an accepted configuration are well formed", "statement": "For every accepted input section the two datasets are created; when they pass the checks of the datasets the images have the same size and their ranges are those of the configured disparities, constant in width, as required by the matching cost.", "quantifier": "every user dictionary, disk content, ROI", "why_tests_cant": "composition of the checks with the creation of the grids, including images of one row or column", "anchors": ["pandora2d/img_tools.py:create_datasets_from_inputs", "pandora2d/img_tools.py:add_disparity_grid", "pandora2d/img_tools.py:get_min_max_disp_from_dicts", "pandora2d/check_configuration.py:check_datasets"]}
{"id": "C76", "title": "Resampling along the columns samples the image between its columns", "statement": "shift_subpix_img with row=False gives subpix images of the size of the given one: itself, then the image linearly interpolated at columns c + k/subpix, no-data in the last column; it is the transpose of the resampling along the rows.", "quantifier": "every image with at least one column, every subpix factor", "why_tests_cant": "column count of the zoom is rounded and sliced; tests use subpix 2 and 4 on one image", "anchors": ["pandora2d/img_tools.py:shift_subpix_img", "pandora2d/img_tools.py:col_zoom_img"]}
{"id": "C77", "title": "What a successful execution writes", "statement": "A successful execution of main writes, in this order: the rasters and the report exactly when the pipeline has a disparity step, then the completed configuration, then the profiling summary exactly when a non-empty expert_mode section is given.", "quantifier": "every user dictionary, disk content, pipeline", "why_tests_cant": "the outputs depend on the combination of the sections; tests run a few configurations", "anchors": ["pandora2d/__init__.py:main", "pandora2d/common.py:save_dataset", "pandora2d/profiling.py:generate_summary"]}
{"id": "C78", "title": "The rasters answer the configuration of the user", "statement": "After a successful execution of main without estimation nor refinement, each raster holds exactly the points of the zone asked by the user (the ROI or the image), one out of step rows and columns, located by its transform at their place in the left image; each pixel is the invalid value of the user in the three rasters or its two disparities are in the intervals asked for that pixel.", "quantifier": "every user dictionary, images, grids, ROI, steps, subpix, costs", "why_tests_cant": "composition of all the stages, from the JSON to the files", "anchors": ["pandora2d/__init__.py:main", "pandora2d/__init__.py:run", "pandora2d/check_configuration.py:check_conf", "pandora2d/img_tools.py:create_datasets_from_inputs", "pandora2d/matching_cost/matching_cost.py:MatchingCost.compute_cost_volumes", "pandora2d/disparity/disparity.py:Disparity.compute_disp_maps", "pandora2d/common.py:save_dataset"]}
{"id": "C79", "title": "The saved configuration describes the search", "statement": "After a successful execution of main without refinement, with an estimation or not, each pixel of the rasters is invalid in the three rasters or its disparities are in the intervals of the saved configuration; with an estimation the saved ranges are those of its section.", "quantifier": "every user dictionary, images, estimated shifts, ROI, steps", "why_tests_cant": "the configuration is completed during the run, after the disparity grids have been replaced", "anchors": ["pandora2d/__init__.py:main", "pandora2d/state_machine.py:Pandora2DMachine.estimation_run", "pandora2d/estimation/estimation.py:AbstractEstimation.update_cfg_with_estimation", "pandora2d/__init__.py:136"]}
{"id": "C80", "title": "The report describes the saved rasters", "statement": "The statistics written in the report are those of the valid pixels of the rasters written by the same execution.", "quantifier": "every user dictionary, images, ROI, pipeline", "why_tests_cant": "the report is computed on the dataset before its margins are removed; nothing compares it with the files", "anchors": ["pandora2d/__init__.py:main", "pandora2d/reporting.py:report_disparities", "pandora2d/common.py:save_dataset"]}
{"id": "C81", "title": "An accepted configuration runs to the end", "statement": "When check_conf accepts a configuration, main ends without exception and writes its files, provided the images accepted by the check can be read.", "quantifier": "every user dictionary accepted by the check, ROI, steps, disparities, estimation, refinement, images", "why_tests_cant": "the checks and the run are far apart; the tests run a few accepted configurations only", "anchors": ["pandora2d/__init__.py:main", "pandora2d/check_configuration.py:check_conf", "pandora2d/state_machine.py:Pandora2DMachine.run"]}
{"id": "C82", "title": "The rasters of a run with a dichotomy answer the user", "statement": "After a successful execution of main with a dichotomy on a zone of at least two rows and columns, the steps are one, each raster holds exactly the points of the zone asked by the user, and each pixel is the invalid value in the two disparity rasters or its disparities are in the intervals asked by the user for that pixel (those of the saved configuration with an estimation) and are multiples of the finest of 1/subpix and 1/2^iterations.", "quantifier": "every user dictionary, images, grids, ROI, subpix, costs, filter, number of iterations", "why_tests_cant": "composition of all the stages with the refinement, whose margins are recorded by the check and used by the matching cost of the run", "anchors": ["pandora2d/__init__.py:main", "pandora2d/__init__.py:run", "pandora2d/refinement/dichotomy.py:Dichotomy.refinement_method", "pandora2d/state_machine.py:Pandora2DMachine.refinement_run", "pandora2d/common.py:save_dataset"]}
{"id": "C83", "title": "The bars of the profiling summary describe the calls", "statement": "In the summary of an execution each profiled function has one bar per figure: its number of calls is the number of its lines, the totals add up to the time of all the lines, its mean time times its number of calls is its total and is between two of its times; the same for the CPU times.", "quantifier": "every file of lines", "why_tests_cant": "figures are not tested", "anchors": ["pandora2d/profiling.py:generate_summary", "pandora2d/profiling.py:generate_figure"]}
{"id": "C84", "title": "The boxes of the profiling summary describe the calls", "statement": "The median shown in the memory and CPU figures for a function is between two of the values measured in its calls.", "quantifier": "every file of lines", "why_tests_cant": "figures are not tested", "anchors": ["pandora2d/profiling.py:generate_summary", "pandora2d/profiling.py:generate_figure"]}
{"id": "C85", "title": "The summary of an execution only counts its own calls", "statement": "When several executions of main run in the same process, each successful execution in expert mode writes the summary of its own profiled calls.", "quantifier": "every sequence of executions, successful or not, in expert mode or not", "why_tests_cant": "tests run one execution at a time", "anchors": ["pandora2d/__init__.py:main", "pandora2d/profiling.py:generate_summary", "pandora2d/profiling.py:Data"]}
{"id": "C86", "title": "A configuration is accepted exactly when it is correct", "statement": "check_conf accepts a configuration if and only if: the input section completed with the defaults has its two images, an integer or infinite or NaN no-data value, masks and grids that can be opened, two disparities of the same kind which do not leave the image (one band grids of the size of the image), nothing else; the ROI is correct; the steps are in order; each section of a step has its mandatory keys, correct optional keys and no other (what Pandora accepts for the matching cost), the window of an optical flow being the one of the matching cost; the right no-data value is an integer unless the cost is neither sad nor ssd; the expert mode is empty or names a folder.", "quantifier": "every user dictionary, state of the disk, behaviour of Pandora", "why_tests_cant": "the space of configurations is unbounded; the tests refuse a few of them and accept a few others", "anchors": ["pandora2d/check_configuration.py:check_conf", "pandora2d/check_configuration.py:check_input_section", "pandora2d/check_configuration.py:check_disparity", "pandora2d/check_configuration.py:check_disparity_grids", "pandora2d/check_configuration.py:check_disparity_ranges_are_inside_image", "pandora2d/check_configuration.py:check_roi_section", "pandora2d/check_configuration.py:check_pipeline_section", "pandora2d/check_configuration.py:check_expert_mode_section", "pandora2d/check_configuration.py:check_right_nodata_condition", "pandora2d/state_machine.py:Pandora2DMachine.check_conf"]}
{"id": "C87", "title": "Each pixel of the rasters is the best pair asked by the user", "statement": "After a successful execution of main without refinement, each pixel of the rasters is compared with all the pairs of disparities asked by the user for that pixel: multiples of 1/subpix in its two intervals (those of the saved configuration with an estimation). It is invalid in the three rasters when no pair has a cost. Otherwise the score is the best cost for the measure chosen by Pandora, and the disparities are the smallest row disparity and the smallest column disparity which reach it. The cost of a pair is the one of Pandora for the left image read from the disk and the right image displaced by the row disparity.", "quantifier": "every user dictionary, images, grids, ROI inside the image, steps, subpix, cost function, measure", "why_tests_cant": "composition of all the stages, from the configuration to the files; the best pair is over an unbounded number of pairs", "anchors": ["pandora2d/__init__.py:main", "pandora2d/__init__.py:run", "pandora2d/matching_cost/matching_cost.py:MatchingCost.compute_cost_volumes", "pandora2d/disparity/disparity.py:Disparity.compute_disp_maps", "pandora2d/common.py:save_dataset"]}
{"id": "C88", "title": "A translation between the two images is found", "statement": "After a successful execution of main without estimation nor refinement and with a window dissimilarity (sad, ssd), a pixel whose right window is the left one displaced by whole pixels inside its intervals has the score 0 in the rasters. Its disparities are the displacement when subpix is one and the windows of the other displacements asked differ.", "quantifier": "every user dictionary, images, displacement, grids, ROI, steps, window size", "why_tests_cant": "the tests look at the result on a few images", "anchors": ["pandora2d/__init__.py:main", "pandora2d/matching_cost/matching_cost.py:MatchingCost.compute_cost_volumes", "pandora2d/img_tools.py:shift_disp_row_img", "pandora2d/disparity/disparity.py:Disparity.compute_disp_maps"]}
{"id": "C89", "title": "The steps only choose the pixels of the rasters", "statement": "Two successful executions of main without refinement, on the same images and disparities (or with the same estimation), the same ROI, the same measure and invalid value, which differ by their steps only, hold the same three values at every pixel which belongs to the rasters of both.", "quantifier": "every user dictionary, images, grids, ROI, pair of steps, subpix, cost function, measure, with or without estimation", "why_tests_cant": "relation between two executions: the steps change the coordinates, the shapes and the disparities grids of every stage", "anchors": ["pandora2d/__init__.py:main", "pandora2d/matching_cost/matching_cost.py:MatchingCost.compute_cost_volumes", "pandora2d/matching_cost/matching_cost.py:MatchingCost.set_out_of_row_disparity_range_to_other_value", "pandora2d/disparity/disparity.py:Disparity.compute_disp_maps", "pandora2d/common.py:save_dataset"]}
{"id": "C90", "title": "A region of interest gives the values of the full images", "statement": "An execution on a region of interest holds, at every pixel shared with the rasters of the same execution on the full images, the same row disparity, column disparity and score.", "quantifier": "every user dictionary, images, grids, ROI inside the image, steps of both executions, subpix, window cost", "why_tests_cant": "relation between two executions; the tests compare a few ROI on one pair of images", "anchors": ["pandora2d/__init__.py:main", "pandora2d/img_tools.py:get_roi_processing", "pandora2d/img_tools.py:create_datasets_from_inputs", "pandora2d/matching_cost/matching_cost.py:MatchingCost.compute_cost_volumes", "pandora2d/common.py:save_dataset"]}
{"id": "C91", "title": "The disparities of the rasters are exact", "statement": "After a successful execution of main without estimation, without refinement or with a dichotomy, when subpix is at most 512 and the disparities asked are less than 32768 in absolute value, each disparity of the rasters is the invalid value or a number which a float32 holds exactly: the conversions to float32 round nothing and the labels of the cost volumes are found again.", "quantifier": "every user dictionary, images, grids, ROI, steps, subpix, number of iterations, filter", "why_tests_cant": "the tests use disparities less than 10; the bound is a statement about all the numbers of an execution", "anchors": ["pandora2d/__init__.py:main", "pandora2d/disparity/disparity.py:Disparity.compute_disp_maps", "pandora2d/refinement/dichotomy.py:Dichotomy.refinement_method", "pandora2d/common.py:save_dataset"]}
{"id": "C92", "title": "Larger intervals never worsen the score", "statement": "Two successful executions of main on the same full images, without estimation nor refinement, with a window cost: at every pixel of both rasters, when the intervals of the first execution are inside those of the second, the first one is invalid or its score is not better than the score of the second.", "quantifier": "every pair of user dictionaries, images, grids, steps of both, subpix, window cost", "why_tests_cant": "relation between two executions with different ranges", "anchors": ["pandora2d/__init__.py:main", "pandora2d/matching_cost/matching_cost.py:MatchingCost.compute_cost_volumes", "pandora2d/disparity/disparity.py:Disparity.compute_disp_maps", "pandora2d/img_tools.py:add_disparity_grid"]}
{"id": "C93", "title": "A dichotomy only moves what the same execution without refinement gives", "statement": "Two successful executions of main on the same full images with the same intervals, without estimation, one with a dichotomy and one without refinement: at every pixel of both rasters, the disparities of the first differ from those of the second by at most 1/subpix - 2^-iterations, and are equal when the latter are invalid or at an end of their interval; when a single pair reaches the score of the second, the score of the first is at least as good. With a ROI, the same against the best pair of the pixel (C87).", "quantifier": "every pair of user dictionaries, images, grids, steps of the second, subpix, number of iterations, filter, window cost", "why_tests_cant": "relation between two executions; the margins of the filter change the ranges and the cost volumes which both select from", "anchors": ["pandora2d/__init__.py:main", "pandora2d/refinement/dichotomy.py:Dichotomy.refinement_method", "pandora2d/disparity/disparity.py:Disparity.compute_disp_maps", "pandora2d/matching_cost/matching_cost.py:MatchingCost.compute_cost_volumes"]}
{"id": "C94", "title": "The checked configuration can be checked and executed again", "statement": "The configuration returned by check_conf is accepted by check_conf on a new machine, which returns the same configuration (same keys, order and values) and leaves the machine in the same state; so main on it writes the same files or raises the same exception as main on the configuration of the user.", "quantifier": "every accepted user dictionary: with or without ROI, estimation, refinement, expert mode; every image, grid and Pandora matching cost", "why_tests_cant": "idempotence of a whole check over unbounded dictionaries, and equality of two executions", "anchors": ["pandora2d/check_configuration.py:check_conf", "pandora2d/check_configuration.py:check_input_section", "pandora2d/check_configuration.py:check_pipeline_section", "pandora2d/__init__.py:main"]}
{"id": "C95", "title": "The saved configuration can be executed again exactly when there is neither a ROI nor an estimation", "statement": "After a successful execution of main, an execution of main on the configuration it has saved writes the same files when the user configuration has neither ROI nor estimation, and is refused by check_conf, before anything is written, when it has one of them (the margins of the ROI and the estimated shifts are keys which the checks do not accept).", "quantifier": "every user dictionary which main executes to the end, images, grids, steps, refinement, expert mode", "why_tests_cant": "relation between two executions, the second one on an output of the first; the tests never read a saved configuration again", "anchors": ["pandora2d/__init__.py:main", "pandora2d/check_configuration.py:check_conf", "pandora2d/check_configuration.py:check_roi_section", "pandora2d/estimation/phase_cross_correlation.py:PhaseCrossCorrelation.check_conf"]}
{"id": "C96", "title": "After an execution with an optical flow, each disparity stays inside its interval and near the best one", "statement": "After a successful execution of main with an optical flow and without estimation, the three rasters hold exactly the points of the zone asked; the score of each pixel is the best cost of the pairs asked for it, as without refinement; each of its disparities is NaN, the invalid value, or strictly inside the interval asked for that pixel, and at most `iterations` away from the disparity of the best pair; the pair is the end of the Lucas-Kanade trajectory of windows of the two images read when the axes keep points at least half a window away on each side, and both disparities are invalid otherwise.", "quantifier": "every image size, grid or interval, ROI, steps, subpixel, matching cost, window, number of iterations, least squares solver and resampling", "why_tests_cant": "whole execution over unbounded images; the tests check the refinement step alone on small windows", "anchors": ["pandora2d/__init__.py:main", "pandora2d/refinement/optical_flow.py:OpticalFlow.refinement_method", "pandora2d/refinement/optical_flow.py:OpticalFlow.optical_flow", "pandora2d/state_machine.py:Pandora2DMachine.refinement_run"]}
{"id": "C97", "title": "After an execution with an interpolation, each pixel minimises the surface of its own costs from its best pair", "statement": "After a successful execution of main with an interpolation and without estimation, the three rasters hold exactly the points of the zone asked; a pixel for which no cost is read is NaN in the three rasters; otherwise its two disparities end the minimisation, started at its best pair (the one an execution without refinement writes), of the surface interpolated from its own costs on the axes of all the disparities asked widened by three, its score is the absolute value of this surface, and its disparities stay on these axes.", "quantifier": "every image size, grid or interval, ROI, steps, subpixel, matching cost, interpolation and minimisation routines (the latter stays in its bounds)", "why_tests_cant": "whole execution over unbounded images and volumes; the tests check the refinement step alone on small volumes", "anchors": ["pandora2d/__init__.py:main", "pandora2d/refinement/interpolation.py:Interpolation.refinement_method", "pandora2d/refinement/interpolation.py:Interpolation.compute_cost_matrix", "pandora2d/state_machine.py:Pandora2DMachine.refinement_run"]}
{"id": "C98", "title": "An optical flow only moves what the same execution without refinement gives", "statement": "Two successful executions of main on the same full images with the same intervals, without estimation, with a window cost, one with an optical flow and one without refinement: at every pixel of both rasters the scores are equal; each disparity of the first is NaN, the invalid value, or at most `iterations` away from the one of the second; the pair is the end of the Lucas-Kanade trajectory of windows which starts from the pair of the second when the axes keep points at least half a window away on each side, and is invalid otherwise.", "quantifier": "every pair of user dictionaries, images, grids, steps of both, subpix, number of iterations, window cost, solver and resampling", "why_tests_cant": "relation between two executions; the margins of the flow change the ranges and the cost volumes which both select from", "anchors": ["pandora2d/__init__.py:main", "pandora2d/refinement/optical_flow.py:OpticalFlow.refinement_method", "pandora2d/disparity/disparity.py:Disparity.compute_disp_maps", "pandora2d/matching_cost/matching_cost.py:MatchingCost.compute_cost_volumes"]}
{"id": "C99", "title": "An accepted configuration on full images runs to the end exactly when its steps, ranges and refinement agree", "statement": "For every configuration accepted by check_conf with a disparity step, without ROI, on images of at least two rows and columns: main ends without exception if and only if (a) the steps are one, or there is an estimation, or the two initial disparities are the same for all the pixels, and (b) the refinement, if any, is an interpolation, or a dichotomy with steps of one, or an optical flow such that some point of the maps has points at least half a window away on each side of each axis. So check_conf accepts configurations which raise during the run, and these are exactly the others.", "quantifier": "every accepted user dictionary, image size, grid, step, subpix, window, matching cost, estimation, refinement; every world which meets the contract of reading", "why_tests_cant": "needs all the configurations; the tests only run some valid ones", "anchors": ["pandora2d/__init__.py:main", "pandora2d/check_configuration.py:check_conf", "pandora2d/matching_cost/matching_cost.py:MatchingCost.compute_cost_volumes", "pandora2d/disparity/disparity.py:Disparity.compute_disp_maps", "pandora2d/refinement/dichotomy.py:Dichotomy.refinement_method", "pandora2d/refinement/optical_flow.py:OpticalFlow.refinement_method"]}
{"id": "C100", "title": "The rasters depend on the values of the configuration only, not on how it is written", "statement": "Two successful executions of main on the same full images, without estimation nor refinement, with a window cost and the same subpix, whose intervals of disparities are equal at each pixel (an integer and a grid filled with it, two different grids with the same values, keys in another order, defaults written or not): each raster has the sizes given by its steps, and at every pixel of both rasters the two disparities and the score are equal, except that a pixel without cost holds the invalid value of its own execution, in both.", "quantifier": "every pair of user dictionaries, images, grids or integers, steps of both, invalid values of both, subpix, window cost", "why_tests_cant": "relation between two executions; the integer and the grid go through different code paths for the ranges", "anchors": ["pandora2d/__init__.py:main", "pandora2d/img_tools.py:create_datasets_from_inputs", "pandora2d/img_tools.py:get_min_max_disp_from_dicts", "pandora2d/matching_cost/matching_cost.py:MatchingCost.compute_cost_volumes", "pandora2d/disparity/disparity.py:Disparity.compute_disp_maps"]}
{"id": "C101", "title": "A finer subpixel factor never worsens the score", "statement": "Two successful executions of main on the same full images, without estimation nor refinement, with a window cost, linear resampling, and subpixel factors n and q * n, the intervals of the first being inside those of the second at each pixel: at every pixel of both rasters, the first holds the invalid value in the three rasters, or its score is not better than the one of the second.", "quantifier": "every pair of user dictionaries, images, grids, steps of both, invalid values, n, q, window cost", "why_tests_cant": "relation between two executions whose cost volumes have different axes and different resampled images", "anchors": ["pandora2d/__init__.py:main", "pandora2d/img_tools.py:shift_subpix_img", "pandora2d/img_tools.py:row_zoom_img", "pandora2d/matching_cost/matching_cost.py:MatchingCost.compute_cost_volumes", "pandora2d/disparity/disparity.py:Disparity.compute_disp_maps"]}
{"id": "C102", "title": "An estimation is the same as giving its result", "statement": "Two successful executions of main on the same full images whose pipelines are the same but for the estimation step, which only the first has, the second being given as constant disparities the nearest integers (half-way: the even one) to the opposite of the shift measured by the correlation with the sample factor of the section, and the ranges of the section (defaults 5 and 1): the three rasters are equal, with their coordinates and georeferencing, and so is the report of statistics.", "quantifier": "every pair of user dictionaries, images, sections of estimation, shift measured, matching cost, steps, subpix and refinement", "why_tests_cant": "relation between two executions through different code paths (disparities in the datasets from the start, or replaced by the estimation)", "anchors": ["pandora2d/__init__.py:main", "pandora2d/estimation/phase_cross_correlation.py:PhaseCrossCorrelation.compute_estimation", "pandora2d/state_machine.py:Pandora2DMachine.estimation_run", "pandora2d/img_tools.py:add_disparity_grid", "pandora2d/check_configuration.py:check_input_section"]}
{"id": "C103", "title": "A pixel receives a disparity exactly when two valid windows can be compared", "statement": "After a successful execution of main without estimation nor refinement, with a window cost and disparities of whole pixels, a pixel of the rasters holds disparities of its intervals and a score when, for some pair of its intervals, the left window and the displaced right window are inside the images read, without no-data, and their centres are not declared invalid by the masks of the user; otherwise it holds the invalid value in the three rasters.", "quantifier": "every user dictionary, image size, ROI or none, grids or integers, steps, window size, masks, finite image values, measure which is not NaN on finite windows", "why_tests_cant": "needs all the images and masks; the tests check masks on single steps and never the right mask through a whole execution", "anchors": ["pandora2d/__init__.py:main", "pandora2d/img_tools.py:shift_disp_row_img", "pandora2d/matching_cost/matching_cost.py:MatchingCost.compute_cost_volumes", "pandora2d/disparity/disparity.py:Disparity.compute_disp_maps"]}
{"id": "C104", "title": "A pixel only depends on the images around it", "statement": "Two successful executions of main on full images of the same size, possibly different images, without estimation nor refinement, with linear resampling, the same window cost and the same subpix: at every pixel of both rasters whose intervals of disparities are the same in both, when the left images hold the same values and no-data flags in the window of this pixel and the same validity at its centre, and the right images have the same no-data value and the same values in the part covered by the windows displaced by the intervals, the two disparities and the score are equal, except that a pixel without cost holds the invalid value of its own execution, in both. The rest of the images, the mask of the right image and the disparities of the other pixels do not count.", "quantifier": "every pair of user dictionaries and of pairs of images, grids or integers, steps of both, invalid values of both, subpix, window size, window cost, pixel", "why_tests_cant": "relation between two executions on different images; the ranges, cost volumes and resampled images of the whole execution depend on all the pixels", "anchors": ["pandora2d/__init__.py:main", "pandora2d/img_tools.py:shift_disp_row_img", "pandora2d/img_tools.py:shift_subpix_img", "pandora2d/matching_cost/matching_cost.py:MatchingCost.compute_cost_volumes", "pandora2d/disparity/disparity.py:Disparity.compute_disp_maps"]}
{"id": "C105", "title": "With a ROI, exactly which accepted configurations run to the end", "statement": "For every accepted configuration with a disparity step, a ROI of at least two rows and columns inside the image, no estimation and no optical flow, in every world where the images accepted by the check can be read: main ends without exception if and only if the steps are one or each of the two initial disparities is the same for all the pixels read, and a dichotomy comes with steps of one. The pixels read are those of the image at most max(|smallest disparity|, margin of the pipeline) before the ROI and at most max(|greatest disparity|, margin of the pipeline) after it, in each direction, the extreme disparities being those of the whole image.", "quantifier": "every user dictionary accepted, image size, ROI, grids or integers, integer steps, pipeline without estimation nor optical flow", "why_tests_cant": "needs all the accepted configurations; whether a run fails depends on disparities outside of the ROI, up to margins which depend on the whole grids", "anchors": ["pandora2d/__init__.py:main", "pandora2d/img_tools.py:get_roi_processing", "pandora2d/img_tools.py:get_min_max_disp_from_dicts", "pandora2d/matching_cost/matching_cost.py:MatchingCost.compute_cost_volumes", "pandora2d/refinement/dichotomy.py:Dichotomy.refinement_method"]}
{"id": "C106", "title": "Exchanging rows and columns exchanges the two disparities", "statement": "Two successful executions of main on full images, without estimation nor refinement, with disparities of whole pixels and the same window cost, whose measure does not depend on the order of the pixels in the window: when the rows of the images of the first are the columns of the images of the second, values and masks, and the row intervals of each pixel in one are the column intervals of the transposed pixel in the other, then at every pixel of the first rasters which is, transposed, a pixel of the second rasters, the row disparity of one is the column disparity of the other and the scores are equal, except that a pixel without cost holds the invalid value of its own execution, in both.", "quantifier": "every pair of user dictionaries and of transposed images, sizes, masks, grids or integers, steps of both, invalid values, window size, order-free measure (sad and ssd are), pixel", "why_tests_cant": "relation between two executions; the code treats the two directions by different mechanisms (the right image is displaced for the rows, Pandora moves along the columns; one reduction for each map)", "anchors": ["pandora2d/__init__.py:main", "pandora2d/img_tools.py:shift_disp_row_img", "pandora2d/matching_cost/matching_cost.py:MatchingCost.compute_cost_volumes", "pandora2d/disparity/disparity.py:Disparity.compute_disp_maps"]}
{"id": "C107", "title": "The match of a pixel goes back from the other image", "statement": "Two successful executions of main on full images, without estimation nor refinement, with disparities of whole pixels and the same window cost, whose measure does not distinguish the two windows, the left and right values being exchanged in the second, and the masks of the left images flagging exactly their no-data: every pixel of the first rasters holds the invalid value three times, or each of its two disparities belongs to a pair which reaches its score, and every pair (x, y) of its intervals which reaches its score leads to a pixel whose score in the second execution is at least as good, when this pixel is in the rasters and (-x, -y) is in its intervals.", "quantifier": "every pair of user dictionaries and of exchanged images, sizes, no-data, grids or integers, steps of both, invalid values, window size, symmetric measure (sad and ssd are), pixel", "why_tests_cant": "relation between two executions on exchanged images; no test compares them", "anchors": ["pandora2d/__init__.py:main", "pandora2d/img_tools.py:shift_disp_row_img", "pandora2d/matching_cost/matching_cost.py:MatchingCost.compute_cost_volumes", "pandora2d/disparity/disparity.py:Disparity.compute_disp_maps"]}
{"id": "C108", "title": "Mirroring the images opposes the disparities", "statement": "Two successful executions of main on full images, without estimation nor refinement, with disparities of whole pixels and the same window cost, whose measure does not depend on the order of the pixels in the window: when the images of the second are those of the first turned upside down, mirrored left to right, or both, with their masks, and the intervals of the mirrored directions are opposed, then a pixel of the first and its mirrored pixel in the second are both invalid, or have the same score and the same disparities, opposed in the mirrored directions.", "quantifier": "every pair of user dictionaries and of mirrored images, the three mirrors, sizes, masks, grids or integers, steps of both, invalid values, window size, order-free measure, pixel", "why_tests_cant": "relation between two executions; it fails only with ties, which the images of the tests avoid", "anchors": ["pandora2d/__init__.py:main", "pandora2d/img_tools.py:shift_disp_row_img", "pandora2d/matching_cost/matching_cost.py:MatchingCost.compute_cost_volumes", "pandora2d/disparity/disparity.py:Disparity.compute_disp_maps", "pandora2d/disparity/disparity.py:Disparity.arg_split"]}
{"id": "C109", "title": "A change of radiometry which the measure follows does not change the disparities", "statement": "Two successful executions of main on full images, without estimation nor refinement, with disparities of whole pixels, the same window cost and the same intervals: when the values of the images of the second are those of the first seen through a function for each image, which makes no new no-data, with the same flags, and the measure of windows seen through them is the measure seen through an increasing function, then at every pixel of both rasters the disparities are the same and the score of the second is the score of the first seen through this function, or both pixels are invalid. With v -> k v + c and k > 0 the scores of sad are multiplied by k and those of ssd by its square.", "quantifier": "every pair of user dictionaries and of images so related, sizes, masks, grids or integers, steps of both, invalid values, window size, measure and functions so related, pixel", "why_tests_cant": "relation between two executions over all images; no test compares two radiometries", "anchors": ["pandora2d/__init__.py:main", "pandora2d/img_tools.py:shift_disp_row_img", "pandora2d/matching_cost/matching_cost.py:MatchingCost.compute_cost_volumes", "pandora2d/disparity/disparity.py:Disparity.compute_disp_maps"]}
{"id": "C110", "title": "Two frames of the same scene give the same disparities where they overlap", "statement": "Two successful executions of main on full images, possibly of different sizes, without estimation nor refinement, with disparities of whole pixels and the same window cost: at a pixel of the first rasters and a pixel of the second rasters, anywhere in both, which have the same intervals, whose left windows hold the same values and flags, and whose displaced right windows, for all the pairs of the intervals, are outside in both or hold the same values, the two disparities and the score are equal, except that a pixel without cost holds the invalid value of its own execution, in both.", "quantifier": "every pair of user dictionaries and of images, of any two sizes, grids or integers, steps of both, invalid values, window size, window cost, pair of pixels", "why_tests_cant": "relation between two executions on images of different sizes and frames (tiling of a scene)", "anchors": ["pandora2d/__init__.py:main", "pandora2d/img_tools.py:shift_disp_row_img", "pandora2d/matching_cost/matching_cost.py:MatchingCost.compute_cost_volumes", "pandora2d/disparity/disparity.py:Disparity.compute_disp_maps"]}
{"id": "C111", "title": "More no-data never improves a score nor gives a disparity", "statement": "Two successful executions of main on full images, without estimation nor refinement, with disparities of whole pixels, the same window cost and the same intervals, the second with more pixels flagged as no-data or invalid in its left image and more no-data values in its right image: at every pixel of both rasters, the second is invalid, or both are valid and the score of the first is at least as good. When every pair which reaches the score in the first can still be compared in the second, the disparities and the score are the same.", "quantifier": "every pair of user dictionaries and of images so related, sizes, masks, grids or integers, steps of both, invalid values, window size, window cost, pixel", "why_tests_cant": "relation between two executions over all images and masks", "anchors": ["pandora2d/__init__.py:main", "pandora2d/img_tools.py:shift_disp_row_img", "pandora2d/matching_cost/matching_cost.py:MatchingCost.compute_cost_volumes", "pandora2d/disparity/disparity.py:Disparity.compute_disp_maps"]}
{"id": "C112", "title": "The values of the no-data pixels do not matter", "statement": "Two successful executions of main on full images, without estimation nor refinement, with the same window cost and the same intervals: the left images have the same masks and only differ by the values of the pixels flagged as no-data, the right images have each a no-data value, held by the same pixels, and the other pixels are equal. At every pixel of both rasters the disparities and the score are the same, except that each execution has its own invalid value.", "quantifier": "every pair of user dictionaries and of images so related, sizes, masks, no-data values, grids or integers, steps of both, invalid values, window size, window cost, subpixel factor, pixel", "why_tests_cant": "relation between two executions over all images, masks and no-data values", "anchors": ["pandora2d/__init__.py:main", "pandora2d/img_tools.py:row_zoom_img", "pandora2d/img_tools.py:shift_disp_row_img", "pandora2d/matching_cost/matching_cost.py:MatchingCost.compute_cost_volumes", "pandora2d/disparity/disparity.py:Disparity.compute_disp_maps"]}
{"id": "C113", "title": "The interpolation starts from the disparities of the execution without refinement", "statement": "Two successful executions of main on the same full images, without estimation, with window costs and the same intervals, one with the interpolation and the other one without refinement, whatever their steps and invalid values: at each pixel they share where the second gives disparities, the first gives two numbers, which end the minimisation started at the pair of the second of a surface interpolated from the costs of this pixel, on the axes of all the disparities asked widened by three; they stay on these axes, and the score is the absolute value of this surface.", "quantifier": "every pair of user dictionaries, images, masks, grids or integers, steps, invalid values, window size, window cost, pixel, and every minimiser which stays within its bounds", "why_tests_cant": "relation between two executions over all images and all behaviours of the external minimiser", "anchors": ["pandora2d/__init__.py:main", "pandora2d/refinement/interpolation.py:Interpolation.refinement_method", "pandora2d/refinement/interpolation.py:Interpolation.compute_cost_matrix", "pandora2d/disparity/disparity.py:Disparity.compute_disp_maps"]}
{"id": "C114", "title": "A change of brightness and contrast does not change the disparities of fractions of pixels", "statement": "Two successful executions of main on full images, without estimation nor refinement, with the same subpixel factor, window cost and intervals: the values of the left image of the second are those of the first seen through a function, those of its right image and its no-data value are multiplied by a positive number and shifted, with the same flags, and the measure of windows so seen is the measure seen through a function which keeps the order of the scores. At each pixel of both rasters both are invalid, or the disparities are the same and the score of the second is the one of the first seen through this function.", "quantifier": "every pair of user dictionaries and of images so related, sizes, masks, no-data values, grids or integers, steps of both, invalid values, window size, window cost, subpixel factor, gain and offset, pixel", "why_tests_cant": "relation between two executions over all images and all gains and offsets", "anchors": ["pandora2d/__init__.py:main", "pandora2d/img_tools.py:row_zoom_img", "pandora2d/img_tools.py:shift_disp_row_img", "pandora2d/matching_cost/matching_cost.py:MatchingCost.compute_cost_volumes", "pandora2d/disparity/disparity.py:Disparity.compute_disp_maps"]}
{"id": "C115", "title": "Mirroring the images opposes the disparities of fractions of pixels", "statement": "Two successful executions of main on full images, without estimation nor refinement, with the same subpixel factor and window cost, whose measure does not depend on the order of the pixels of the window: the images of the second are those of the first turned upside down, mirrored left to right, or both, and its intervals are opposed in the mirrored directions. At each pixel of the first which is, mirrored, a pixel of the second, both are invalid, or the scores are equal and, when a single pair of disparities has this cost, both executions give it, opposed in the mirrored directions in the second.", "quantifier": "every pair of user dictionaries and of images so related, sizes, masks, no-data values, grids or integers, steps of both, invalid values, window size, window cost, subpixel factor, pixel, directions mirrored", "why_tests_cant": "relation between two executions over all images and all subpixel factors", "anchors": ["pandora2d/__init__.py:main", "pandora2d/img_tools.py:row_zoom_img", "pandora2d/img_tools.py:shift_disp_row_img", "pandora2d/matching_cost/matching_cost.py:MatchingCost.compute_cost_volumes", "pandora2d/disparity/disparity.py:Disparity.compute_disp_maps"]}
{"id": "C116", "title": "Two frames of the same scene give the same disparities of fractions of pixels where they overlap", "statement": "Two successful executions of main on full images, possibly of different sizes, without estimation nor refinement, with the same subpixel factor and window cost. At a pixel of the first and a pixel of the second which have the same intervals, the same left windows, and whose displaced windows reach the same part of the right images (each row and column reached is inside both or outside both, with the same values), the disparities and the score are the same, except that each execution has its own invalid value.", "quantifier": "every pair of user dictionaries and of images, sizes of both, masks, no-data value, grids or integers, steps of both, invalid values, window size, window cost, subpixel factor, pair of pixels", "why_tests_cant": "relation between two executions over all images, sizes and positions of the frames", "anchors": ["pandora2d/__init__.py:main", "pandora2d/img_tools.py:row_zoom_img", "pandora2d/img_tools.py:shift_disp_row_img", "pandora2d/matching_cost/matching_cost.py:MatchingCost.compute_cost_volumes", "pandora2d/disparity/disparity.py:Disparity.compute_disp_maps"]}
{"id": "C117", "title": "Two regions of interest of the same images give the same values at the pixels they share", "statement": "Two successful executions of main on two regions of interest of the same images, without estimation nor refinement, with the same subpixel factor and window cost, and the same disparity intervals: at each pixel of both files the row disparity, the column disparity and the score are the same, except that each execution has its own invalid value.", "quantifier": "every pair of user dictionaries with the same input section, regions, steps of both, invalid values, window size, window cost, subpixel factor, grids or integers, image sizes and contents, shared pixel", "why_tests_cant": "relation between two executions over all regions; processing by tiles relies on it", "anchors": ["pandora2d/__init__.py:main", "pandora2d/img_tools.py:get_roi_processing", "pandora2d/img_tools.py:shift_disp_row_img", "pandora2d/matching_cost/matching_cost.py:MatchingCost.compute_cost_volumes", "pandora2d/disparity/disparity.py:Disparity.compute_disp_maps"]}
{"id": "C118", "title": "Exchanging rows and columns exchanges the two disparities, with fractions of pixels", "statement": "Two successful executions of main on full images, without estimation nor refinement, with the same subpixel factor and the same window cost, which does not depend on the order of the pixels of the window: if the images and the disparity intervals of the second are those of the first with rows and columns exchanged, then at every pixel which both files give, both hold their invalid value or both have the same score, the row disparity of one being the column disparity of the other.", "quantifier": "every pair of user dictionaries, steps of both, invalid values, window size, window cost, subpixel factor, grids or integers, image sizes and contents with a no-data value other than NaN", "why_tests_cant": "the fractions of a row are interpolated by pandora2d (row_zoom_img) and the fractions of a column by pandora: the agreement of the two is a relation between two executions over all images", "anchors": ["pandora2d/__init__.py:main", "pandora2d/img_tools.py:row_zoom_img", "pandora2d/img_tools.py:shift_disp_row_img", "pandora2d/matching_cost/matching_cost.py:MatchingCost.compute_cost_volumes", "pandora2d/disparity/disparity.py:Disparity.compute_disp_maps"]}
{"id": "C119", "title": "After a dichotomy each pixel is the end of a search, from its best pair, on its own filtered costs", "statement": "In a successful execution with a dichotomy, each pixel of the written rasters is exactly the end of the following search. It starts from the best pair of its interval (C87), where the value is its cost. At each step, of 1/2^(k+1), ..., 1/2^it when subpix is 2^k, the nine positions around the current one are tried: the value kept so far at the centre, elsewhere the costs of the pixel interpolated with the kernel of the filter (the cubic convolution of Keys for bicubic, the normalised cardinal sine under a Gaussian for sinc), NaN when one of the samples is NaN. The best value is chosen, the first one by rows then columns among equal ones, and nothing moves when the nine are equal. The score is the last value. A pixel which is invalid keeps its pair with the score NaN, a pixel at an end of its interval or without cost keeps its pair and its cost. The result is therefore determined by the costs of the pixel alone.", "quantifier": "for every accepted configuration with a dichotomy and without estimation, every ROI inside the image or none, subpix, iterations, filter, cost and kind of initial disparities, every pair of images, every pixel", "why_tests_cant": "The tests compare a few refined disparities with recorded numbers; they cannot tell for every cost curve, tie, filter and subpix which of the nine candidates wins and where the windows of the filter lie.", "anchors": ["pandora2d/__init__.py:main", "pandora2d/refinement/dichotomy.py:Dichotomy.refinement_method", "pandora2d/refinement/dichotomy.py:search_new_best_point", "pandora2d/interpolation_filter/interpolation_filter.py:AbstractFilter.interpolate", "pandora2d/interpolation_filter/bicubic.py:Bicubic.get_coeffs", "pandora2d/interpolation_filter/cardinal_sine.py:CardinalSine.get_coeffs"]}
{"id": "C120", "title": "More iterations of the dichotomy go on from where fewer ones stop", "statement": "Two successful executions of main on the same full images, without estimation, with the same subpixel factor, window cost, intervals, invalid value and filter kernel, with dichotomies of it and it' >= it iterations: at each pixel the two disparities and the score are the same, or the disparities of the two executions are at most 1/2^it - 1/2^it' apart and the score of the second is at least as good as the score of the first.", "quantifier": "every pair of user dictionaries, numbers of iterations, images, integers or grids, subpix, filter, window cost, every pixel", "why_tests_cant": "relation between two executions; the tests run one number of iterations at a time", "anchors": ["pandora2d/__init__.py:main", "pandora2d/refinement/dichotomy.py:Dichotomy.refinement_method", "pandora2d/refinement/dichotomy.py:search_new_best_point"]}
{"id": "C121", "title": "A refined pixel only depends on the images around it", "statement": "Two successful executions of main on full images of the same size, possibly different, without estimation, with a dichotomy, the same subpixel factor, window cost, intervals, invalid value, iterations and filter kernel: at each pixel where the left images hold the same in its window and the right images hold the same in the part covered by the windows displaced by its intervals extended by the samples of the filter (one before and two after for bicubic), the two refined disparities and the score are the same.", "quantifier": "every pair of user dictionaries and images of the same size, integers or grids, subpix, iterations, filter, window cost, every pixel", "why_tests_cant": "relation between executions on different images; depends on every offset between the axes of the costs, the margins and the windows of the filter", "anchors": ["pandora2d/__init__.py:main", "pandora2d/refinement/dichotomy.py:Dichotomy.refinement_method", "pandora2d/interpolation_filter/interpolation_filter.py:AbstractFilter.interpolate", "pandora2d/matching_cost/matching_cost.py:MatchingCost.compute_cost_volumes"]}
{"id": "C122", "title": "Brightness and contrast do not change the refined disparities", "statement": "Two successful executions of main on full images, without estimation, with a dichotomy, the same subpixel factor, window cost, intervals, invalid value, iterations and filter kernel, the images of the second being those of the first with another brightness and contrast which multiply the measure by a positive factor: at each pixel the refined disparities are the same and the scores are multiplied by this factor.", "quantifier": "every pair of user dictionaries and images, changes of values of the left image, gains and shifts of the right image, factors, integers or grids, subpix, iterations, filter, window cost, every pixel", "why_tests_cant": "relation between executions on different images, for every gain; a constant compared with the interpolated costs would break it on some images only", "anchors": ["pandora2d/__init__.py:main", "pandora2d/refinement/dichotomy.py:Dichotomy.refinement_method", "pandora2d/refinement/dichotomy.py:search_new_best_point", "pandora2d/interpolation_filter/interpolation_filter.py:AbstractFilter.apply", "pandora2d/interpolation_filter/bicubic.py:Bicubic.get_coeffs"]}
{"id": "C123", "title": "The dichotomy finds an optimum between the samples", "statement": "For every successful execution with a dichotomy and the bicubic filter, without estimation, with every ROI inside the image or none, every kind of initial disparities and subpixel factor n = 2^k: at each pixel where the costs at the samples within two and a half samples of (x0, y0) are those of a quadratic surface a(x-x0)^2 + b(y-y0)^2 + e which opens on the right side for the measure, where no other asked cost is better than the surface, and where (x0, y0) is more than half a sample inside the intervals, the two disparities written in the rasters are at most half of the last step 1/2^max(k, iterations) away from x0 and y0, and the score written is the value of the surface there.", "quantifier": "All worlds which honour the contracts of the disk and of Pandora, all user configurations with a dichotomy and the bicubic filter, all images, all pixels, all quadratic surfaces and all numbers of iterations.", "why_tests_cant": "A test looks at a few surfaces and a few iterations. The claim holds for every real optimum and every quadratic surface, which needs that the bicubic kernel reproduces quadratic polynomials and that each step of the search keeps the distance to the optimum below half of the step.", "anchors": ["pandora2d/__init__.py:main", "pandora2d/refinement/dichotomy.py:Dichotomy.refinement_method", "pandora2d/refinement/dichotomy.py:search_new_best_point", "pandora2d/interpolation_filter/interpolation_filter.py:AbstractFilter.interpolate", "pandora2d/interpolation_filter/interpolation_filter.py:AbstractFilter.apply", "pandora2d/interpolation_filter/bicubic.py:Bicubic.get_coeffs", "pandora2d/disparity/disparity.py:Disparity.compute_disp_maps"]}
{"id": "C124", "title": "A translation of whole pixels is kept by a refinement", "statement": "For every successful execution with the subpixel factor one, without estimation, when the right image is the left image translated by whole pixels (dr, dc), at every pixel whose window is inside both images without no-data, whose displacement is strictly inside its intervals and whose window differs from the other windows of its intervals: a refinement keeps the disparities (dr, dc) and the null score. It holds for the optical flow at every pixel at least half a window away from the border. It is false for a dichotomy: on two equal images one iteration with the bicubic filter can move a pixel to half a pixel and write a negative score, although the measure is a sum of absolute differences. It holds for a dichotomy where the interpolated costs at most half a pixel away are positive.", "quantifier": "All worlds which honour the contracts of the disk, of Pandora and of the least squares and null displacement of the optical flow, all user configurations of the kind, with every ROI or none, all images, all translations and all pixels.", "why_tests_cant": "A test compares a few pairs of images. The claim quantifies over every pair of translated images and every pixel, and its failure depends on negative interpolated costs which smooth test images do not show.", "anchors": ["pandora2d/__init__.py:main", "pandora2d/refinement/optical_flow.py:OpticalFlow.refinement_method", "pandora2d/refinement/optical_flow.py:OpticalFlow.lucas_kanade_core_algorithm", "pandora2d/refinement/dichotomy.py:Dichotomy.refinement_method", "pandora2d/refinement/dichotomy.py:search_new_best_point", "pandora2d/interpolation_filter/interpolation_filter.py:AbstractFilter.interpolate", "pandora2d/disparity/disparity.py:Disparity.compute_disp_maps"]}
{"id": "C125", "title": "With a ROI and an optical flow, exactly which accepted configurations run to the end", "statement": "For an accepted configuration with a disparity step, a ROI of at least two rows and columns and no estimation, main ends without exception if and only if: the steps are one or the initial disparities do not vary over the pixels read; a dichotomy has steps of one; and with an optical flow, on each axis, some point of the maps has other points at least half a window away on each side, and each group of step pixels counted from the first pixel read holds a point of the maps (the points are at multiples of the step from the first pixel of the ROI). So an optical flow with a ROI and a step raises or not depending on the margins read around the ROI.", "quantifier": "all accepted configurations with a ROI and no estimation, all steps, windows, disparities and sizes, all worlds meeting the contracts", "why_tests_cant": "whether the shapes of the subsampled grids and of the maps agree depends on the ROI, the margins, the extreme disparities and the steps together; tests have a few combinations.", "anchors": ["pandora2d/__init__.py:main", "pandora2d/refinement/optical_flow.py:OpticalFlow.refinement_method", "pandora2d/refinement/optical_flow.py:OpticalFlow._invalid_out_of_grid_disparities", "pandora2d/matching_cost/matching_cost.py:MatchingCost.compute_cost_volumes", "pandora2d/img_tools.py:get_roi_processing"]}
{"id": "C126", "title": "With an estimation and a ROI, exactly which accepted configurations run to the end", "statement": "For an accepted configuration with an estimation, a disparity step and a ROI of at least two rows and columns, main ends without exception if and only if: each direction has a disparity around the ROI, that is an initial disparity which is an integer, a grid or absent (absent or empty values become -9997 and a range of 2), both directions are of the same kind (two integers or two grids); a dichotomy has steps of one; and with an optical flow each axis meets the condition of C125. The pixels read around the ROI follow the disparities of the user or the default ones, not the estimated ones, so an optical flow with steps can end when the user gives disparities and raise when they give none.", "quantifier": "all accepted configurations with an estimation and a ROI, all steps, windows, disparities and sizes, all worlds meeting the contracts where the correlation is finite", "why_tests_cant": "the disparities used for the margins are the defaults merged before the estimation runs; only executions with an estimation, a ROI, no disparity and some refinement show it.", "anchors": ["pandora2d/__init__.py:main", "pandora2d/img_tools.py:get_roi_processing", "pandora2d/check_configuration.py:check_input_section", "pandora2d/refinement/optical_flow.py:OpticalFlow.refinement_method", "pandora2d/matching_cost/matching_cost.py:MatchingCost.compute_cost_volumes"]}
{"id": "C127", "title": "Brightness and contrast with an optical flow", "statement": "When both images, and their no-data values, are multiplied by the same positive gain and shifted by the same offset, and the measure follows that change with the order of its scores kept, a run with an optical flow gives exactly the same refined disparities at each pixel, and the scores follow. This asks two things from the external functions: the solver gives the same motion when all the equations are multiplied by the gain, and the resampling follows the change.", "quantifier": "all pairs of successful executions on full images with an optical flow, all images, masks, gains, offsets, intervals, steps, subpixel factors, window sizes, numbers of iterations, window costs, solvers and resamplings which follow the change", "why_tests_cant": "a metamorphic relation between two executions, for all images and all gains; the tests compare fixed images with fixed values", "anchors": ["pandora2d/refinement/optical_flow.py:OpticalFlow.lucas_kanade_core_algorithm", "pandora2d/refinement/optical_flow.py:OpticalFlow.optical_flow", "pandora2d/refinement/optical_flow.py:OpticalFlow.refinement_method", "pandora2d/refinement/optical_flow.py:OpticalFlow.warped_img", "pandora2d/__init__.py:main"]}
{"id": "C128", "title": "The part of the images a pixel refined by an optical flow depends on", "statement": "With an optical flow, the three values of a pixel depend on nothing but its intervals, the left windows around it, and the part of the right image covered by the windows of the cost displaced by its intervals and by the windows of the flow displaced by its intervals or not at all.", "quantifier": "all pairs of successful executions on full images of the same size with an optical flow, all images which are equal around the pixel, all masks, intervals, steps, subpixel factors, window sizes, numbers of iterations, window costs, solvers and resamplings", "why_tests_cant": "a statement on all the pairs of images which are equal around a pixel, and on the flattened axes of the code, where a wrong index reads the window of another pixel", "anchors": ["pandora2d/refinement/optical_flow.py:OpticalFlow.reshape_to_matching_cost_window", "pandora2d/refinement/optical_flow.py:OpticalFlow.optical_flow", "pandora2d/refinement/optical_flow.py:OpticalFlow.refinement_method", "pandora2d/refinement/optical_flow.py:OpticalFlow.warped_img", "pandora2d/matching_cost/matching_cost.py:MatchingCost.compute_cost_volumes", "pandora2d/__init__.py:main"]}
{"id": "C129", "title": "Exchanging the axes of the images exchanges the disparities refined by an optical flow", "statement": "Two successful executions on full images with an optical flow and disparities of whole pixels before the refinement, the second on the transposed images with exchanged steps and intervals, with a measure which does not depend on the order of the pixels: at each pixel the row disparity of one is the column disparity of the other at the transposed pixel, and conversely, and the scores are equal, provided the least squares solver gives exchanged unknowns for exchanged coefficients and the resampling does not distinguish the axes.", "quantifier": "all images of any size, masks, windows, steps, intervals, iterations, invalid values, solvers and resamplings which meet the stated contracts", "why_tests_cant": "A test compares one pair of images; a mistake which exchanges x and y in the gradient, in the motion or in the resampling may be hidden by symmetric data.", "anchors": ["pandora2d/refinement/optical_flow.py:OpticalFlow.refinement_method", "pandora2d/refinement/optical_flow.py:OpticalFlow.optical_flow", "pandora2d/refinement/optical_flow.py:OpticalFlow.lucas_kanade_core_algorithm", "pandora2d/refinement/optical_flow.py:OpticalFlow.warped_img", "pandora2d/refinement/optical_flow.py:OpticalFlow.reshape_to_matching_cost_window", "pandora2d/matching_cost/matching_cost.py:MatchingCost.compute_cost_volumes", "pandora2d/disparity/disparity.py:Disparity.compute_disp_maps", "pandora2d/__init__.py:main"]}
{"id": "C130", "title": "Mirroring the images opposes the disparities refined by an optical flow", "statement": "Two successful executions on full images with an optical flow, the second on the mirrored images (upside down, left to right, or both) with opposed intervals, with an invalid value which is not a number or is larger than one and than the disparities: at mirrored pixels both scores are invalid, or they are equal and, when one pair of disparities only reaches this score before the refinement, each refined disparity is the opposite in the mirrored direction, or both are invalid.", "quantifier": "all images of any size, masks, windows, steps, subpixel factors, intervals, iterations, solvers and resamplings which meet the stated contracts", "why_tests_cant": "A test runs one pair of images; the sign of the gradient, of the motion and of the resampling must be right in each direction and at each border of the window.", "anchors": ["pandora2d/refinement/optical_flow.py:OpticalFlow.refinement_method", "pandora2d/refinement/optical_flow.py:OpticalFlow.optical_flow", "pandora2d/refinement/optical_flow.py:OpticalFlow.lucas_kanade_core_algorithm", "pandora2d/refinement/optical_flow.py:OpticalFlow.warped_img", "pandora2d/refinement/optical_flow.py:OpticalFlow.reshape_to_matching_cost_window", "pandora2d/matching_cost/matching_cost.py:MatchingCost.compute_cost_volumes", "pandora2d/disparity/disparity.py:Disparity.compute_disp_maps", "pandora2d/__init__.py:main"]}
{"id": "C131", "title": "Two frames of a scene give the same disparities refined by an optical flow", "statement": "Two successful executions on full images, possibly of different sizes and steps, with an optical flow and the same subpixel factor, cost, invalid value, iterations and window: at a pixel of each which have the same intervals, see the same scene with the windows of the cost and of the flow, and are both away from the border of their frame or both too close to it, the three values are the same.", "quantifier": "all pairs of frames, pixels, windows, steps, subpixel factors, intervals, iterations and solvers", "why_tests_cant": "A test compares one crop; the windows of the flow are found by numbers which depend on the width of the image and on the steps.", "anchors": ["pandora2d/refinement/optical_flow.py:OpticalFlow.refinement_method", "pandora2d/refinement/optical_flow.py:OpticalFlow.optical_flow", "pandora2d/refinement/optical_flow.py:OpticalFlow.reshape_to_matching_cost_window", "pandora2d/refinement/optical_flow.py:OpticalFlow.lucas_kanade_core_algorithm", "pandora2d/matching_cost/matching_cost.py:MatchingCost.compute_cost_volumes", "pandora2d/disparity/disparity.py:Disparity.compute_disp_maps", "pandora2d/__init__.py:main"]}
{"id": "C132", "title": "Two frames of a scene give the same disparities refined by a dichotomy", "statement": "Two successful executions on full images, possibly of different sizes, with a dichotomy and the same subpixel factor, cost, invalid value, iterations and kernel, whose intervals have the same first and last disparities: at a pixel of each which have the same intervals and see the same scene, within the intervals extended by the samples of the kernel, the three values are the same.", "quantifier": "all pairs of frames, images, masks, pixels, windows, subpixel factors, intervals, iterations and kernels", "why_tests_cant": "A test compares one crop; the interpolation reads costs of pairs outside the interval of the pixel, from a volume whose size depends on all the pixels.", "anchors": ["pandora2d/refinement/dichotomy.py:Dichotomy.refinement_method", "pandora2d/refinement/dichotomy.py:search_new_best_point", "pandora2d/interpolation_filter/interpolation_filter.py:AbstractFilter.interpolate", "pandora2d/matching_cost/matching_cost.py:MatchingCost.compute_cost_volumes", "pandora2d/disparity/disparity.py:Disparity.compute_disp_maps", "pandora2d/__init__.py:main"]}
{"id": "C133", "title": "Two zones of the same images give the same disparities refined by a dichotomy", "statement": "Two successful executions with a dichotomy on two zones of the same images (regions of interest or the full images), with the same subpixel factor, cost, intervals, invalid value, iterations and kernel, when the intervals of the pixels which both read have the same first and last disparities: at each pixel of both files the three values are the same.", "quantifier": "all images, masks, regions of interest, shared pixels, windows, subpixel factors, intervals, iterations and kernels", "why_tests_cant": "Relation between two executions over all regions; processing by tiles relies on the margins read around each tile.", "anchors": ["pandora2d/refinement/dichotomy.py:Dichotomy.refinement_method", "pandora2d/refinement/dichotomy.py:search_new_best_point", "pandora2d/interpolation_filter/interpolation_filter.py:AbstractFilter.interpolate", "pandora2d/img_tools.py:get_roi_processing", "pandora2d/matching_cost/matching_cost.py:MatchingCost.compute_cost_volumes", "pandora2d/disparity/disparity.py:Disparity.compute_disp_maps", "pandora2d/__init__.py:main"]}
{"id": "C134", "title": "Exchanging rows and columns exchanges the disparities refined by a dichotomy", "statement": "Two successful executions on full images, with a dichotomy, disparities of whole pixels before the refinement, the same window cost (not depending on the order of the pixels), invalid value, iterations and kernel: when the images of the second are the transposed images of the first, with their masks, and the intervals of the two directions are exchanged, the row disparity of one is the column disparity of the other at the transposed pixel and the scores are the same.", "quantifier": "all pairs of images, masks, pixels, windows, measures, intervals, iterations and kernels", "why_tests_cant": "A relation between two executions for all images; a test with random images never meets two moves of the search with the same value.", "anchors": ["pandora2d/refinement/dichotomy.py:Dichotomy.refinement_method", "pandora2d/refinement/dichotomy.py:search_new_best_point", "pandora2d/interpolation_filter/interpolation_filter.py:AbstractFilter.interpolate", "pandora2d/matching_cost/matching_cost.py:MatchingCost.compute_cost_volumes", "pandora2d/disparity/disparity.py:Disparity.compute_disp_maps", "pandora2d/__init__.py:main"]}
{"id": "C135", "title": "Mirroring the images opposes the disparities refined by a dichotomy with the bicubic filter", "statement": "Two successful executions on full images, with a dichotomy and the bicubic filter, disparities of whole pixels before the refinement, the same window cost (not depending on the order of the pixels), invalid value and iterations: when the images of the second are those of the first mirrored (upside down, left to right, or both) and the intervals are opposed in the mirrored directions, then at each pixel where one pair is better than the others, the costs in the intervals extended by one pixel are numbers and the search meets no tie, the refined disparities are opposed in the mirrored directions and the scores are the same.", "quantifier": "all pairs of images, masks, mirrors, pixels, windows, measures, intervals and iterations", "why_tests_cant": "A relation between two executions for all images; the filter reads one sample before and two after each position, which a test on a few images cannot show to be harmless.", "anchors": ["pandora2d/refinement/dichotomy.py:Dichotomy.refinement_method", "pandora2d/refinement/dichotomy.py:search_new_best_point", "pandora2d/interpolation_filter/interpolation_filter.py:AbstractFilter.interpolate", "pandora2d/interpolation_filter/bicubic.py:Bicubic.get_coeffs", "pandora2d/matching_cost/matching_cost.py:MatchingCost.compute_cost_volumes", "pandora2d/disparity/disparity.py:Disparity.compute_disp_maps", "pandora2d/__init__.py:main"]}
{"id": "C136", "title": "Two zones of the same images give the same values where they overlap, after an optical flow", "statement": "Two successful executions with an optical flow on two zones of the same images (regions of interest, or the full images), without estimation, with the same intervals, subpixel factor, window cost, invalid value, iterations and window, whatever the steps: at the pixels they share the refined disparities and the scores are the same.", "quantifier": "all images, zones, steps, intervals, windows, measures, iterations and pixels shared by the two zones", "why_tests_cant": "A relation between two executions for all images and zones: the coordinates, the borders and the windows of the flow are computed from what is read, which differs between the two.", "anchors": ["pandora2d/refinement/optical_flow.py:OpticalFlow.refinement_method", "pandora2d/refinement/optical_flow.py:OpticalFlow.reshape_to_matching_cost_window", "pandora2d/img_tools.py:get_roi_processing", "pandora2d/img_tools.py:remove_roi_margins", "pandora2d/disparity/disparity.py:Disparity.compute_disp_maps", "pandora2d/__init__.py:main"]}
{"id": "C137", "title": "The values of the no-data pixels do not matter with a dichotomy from whole pixels", "statement": "Two successful executions with a dichotomy on full images, without estimation, with disparities of whole pixels before the refinement and the same window cost, intervals, invalid value, iterations and filter: when the images only differ by the values of the left pixels flagged as no-data and by the no-data value of the right image, held by the same pixels, the refined disparities and the scores are the same.", "quantifier": "all images, masks, no-data values, intervals, windows, measures, kernels, iterations and pixels", "why_tests_cant": "A relation between two executions for all images: the no-data values are in the arrays which are shifted, compared and interpolated, and a single leak changes the result.", "anchors": ["pandora2d/refinement/dichotomy.py:Dichotomy.refinement_method", "pandora2d/img_tools.py:shift_disp_row_img", "pandora2d/matching_cost/matching_cost.py:MatchingCost.compute_cost_volumes", "pandora2d/__init__.py:main"]}
{"id": "C138", "title": "The values of the no-data pixels do not matter with an optical flow", "statement": "Two successful executions with an optical flow on full images, without estimation, with disparities of whole pixels before the refinement, the invalid value NaN, and the same steps, window cost, intervals, iterations and window: when the images only differ by the values of the left pixels flagged as no-data and by the no-data value of the right image, held by the same pixels, the refined disparities and the scores are the same.", "quantifier": "all images, masks, no-data values, steps, intervals, windows, measures, solvers, iterations and pixels", "why_tests_cant": "A relation between two executions for all images: the optical flow reads the images without their masks, so that nothing in it rejects the no-data values.", "anchors": ["pandora2d/refinement/optical_flow.py:OpticalFlow.refinement_method", "pandora2d/refinement/optical_flow.py:OpticalFlow.reshape_to_matching_cost_window", "pandora2d/refinement/optical_flow.py:OpticalFlow.lucas_kanade_core_algorithm", "pandora2d/disparity/disparity.py:Disparity.compute_disp_maps", "pandora2d/__init__.py:main"]}
{"id": "C139", "title": "The report is a standard JSON file", "statement": "The report.json written by a successful execution is a JSON text in the sense of RFC 8259, and a reader of standard JSON finds in it, under the announced keys, the statistics of the valid pixels of the two rasters of disparities.", "quantifier": "all worlds, configurations with a disparity step, pipelines and images; sizes unbounded; no ROI", "why_tests_cant": "The encoder of Python writes NaN without complaint and the reader of Python accepts it, so a test which reads the report back with the same library cannot see the difference.", "anchors": ["pandora2d/__init__.py:main", "pandora2d/reporting.py:NumpyPrimitiveEncoder.default", "pandora2d/reporting.py:report_disparities", "pandora2d/statistics.py:Statistics.to_dict"]}
{"id": "C140", "title": "Larger intervals with a dichotomy", "statement": "With a dichotomy, enlarging the intervals of disparities changes nothing at a pixel whose best pairs, over the larger intervals, are inside the smaller intervals and not at their ends: its refined disparities and its score are the same.", "quantifier": "all worlds with the linear zoom, all images, window costs, subpixel factors, iterations and kernels; two successful executions on full images, without estimation, whose intervals are nested; all pixels", "why_tests_cant": "The two executions search from the same pair through samples stored at different ranks of volumes of different sizes; a test on a few images with integer disparities cannot see that the intervals of other pixels decide which samples exist.", "anchors": ["pandora2d/common.py:set_out_of_row_disparity_range_to_other_value", "pandora2d/refinement/dichotomy.py:search_new_best_point", "pandora2d/refinement/dichotomy.py:Dichotomy.refinement_method", "pandora2d/disparity/disparity.py:Disparity.compute_disp_maps"]}
{"id": "C141", "title": "Larger intervals with an optical flow", "statement": "With an optical flow, enlarging the intervals of disparities of the pixels keeps the score of a pixel whose best pairs, over its larger intervals, are all in its smaller ones. Each of its refined disparities is the same too, unless the smaller interval refuses it: it is then invalid with the smaller interval, and with the larger one it is a number which is not strictly inside the smaller interval.", "quantifier": "all worlds with the linear zoom, all images, window costs, subpixel factors, steps, invalid values, half windows and numbers of iterations; two successful executions on full images, without estimation, whose intervals (integers or grids) are nested at each pixel; all pixels", "why_tests_cant": "The two executions use volumes of different sizes and masks; a few images cannot show that the intervals only act through the choice of the best pair and the final comparison with the bounds.", "anchors": ["pandora2d/refinement/optical_flow.py:OpticalFlow.refinement_method", "pandora2d/disparity/disparity.py:Disparity.compute_disp_maps", "pandora2d/matching_cost/matching_cost.py:MatchingCost.compute_cost_volumes"]}
{"id": "C142", "title": "More iterations of the optical flow", "statement": "With m more iterations of the optical flow, the score of each pixel is the same, each refined disparity which is a number in both executions, and not the invalid value, moves by at most m pixels, and a disparity which is NaN because the flow has no solution stays NaN.", "quantifier": "all worlds, all images, window costs, subpixel factors, steps, intervals, invalid values, half windows, numbers of iterations and m; two successful executions on full images, without estimation; all pixels", "why_tests_cant": "It relates the trajectories of two executions of any lengths; a test compares a few numbers of iterations on a few images.", "anchors": ["pandora2d/refinement/optical_flow.py:OpticalFlow.refinement_method", "pandora2d/refinement/optical_flow.py:OpticalFlow.optical_flow", "pandora2d/refinement/optical_flow.py:OpticalFlow.warped_img"]}
{"id": "C143", "title": "What a pixel refined by an interpolation depends on", "statement": "With an interpolation, the two disparities and the score of a pixel only depend on its window in the left image and on the part of the right image covered by this window displaced by all the row disparities asked for the pixels of the image and by its own column disparities, each widened by three: two executions whose images agree there give the same three values, whatever the rest of the images and whatever the steps.", "quantifier": "all worlds with the linear zoom, all images, window costs, subpixel factors, steps and invalid values, all functions interp2d which only read what they are given and all minimisers which stay in their bounds; two successful executions on full images of the same size, without estimation, with the same intervals (integers or grids) at each pixel; all the pixels they share", "why_tests_cant": "The surface minimised for a pixel is read in a volume computed for the whole images, whose missing costs are filled by np.interp; a few images cannot show that nothing else is read.", "anchors": ["pandora2d/refinement/interpolation.py:Interpolation.refinement_method", "pandora2d/refinement/interpolation.py:Interpolation.compute_cost_matrix", "pandora2d/disparity/disparity.py:Disparity.compute_disp_maps", "pandora2d/matching_cost/matching_cost.py:MatchingCost.compute_cost_volumes"]}
{"id": "C144", "title": "Two frames of a scene give the same disparities refined by an interpolation", "statement": "Two successful executions on full images, possibly of different sizes and steps, with an interpolation and the same subpixel factor, cost and invalid value, whose intervals have the same first and last disparities: at a pixel of each which have the same intervals and see the same scene, within the row disparities of the images and its own column disparities, each widened by three, the three values are the same.", "quantifier": "all pairs of frames of any sizes, images, masks, pixels, windows, steps, subpixel factors, intervals (integers or grids) and invalid values; all functions interp2d which only read what they are given and all minimisers which stay in their bounds", "why_tests_cant": "A frame only shows one border; that the position of the frame, its size and the steps never matter cannot be seen on a few images.", "anchors": ["pandora2d/refinement/interpolation.py:Interpolation.refinement_method", "pandora2d/refinement/interpolation.py:Interpolation.compute_cost_matrix", "pandora2d/disparity/disparity.py:Disparity.compute_disp_maps", "pandora2d/matching_cost/matching_cost.py:MatchingCost.compute_cost_volumes"]}
{"id": "C145", "title": "Two zones of the same images give the same disparities refined by an interpolation", "statement": "Two successful executions with an interpolation on two zones of the same images (regions of interest, or the full images), without estimation, with the same intervals, subpixel factor, window cost and invalid value, whatever the steps, when the intervals of the pixels which both read have the same first and last disparities: at the pixels they share the three values are the same.", "quantifier": "all images, masks, zones, steps, subpixel factors, intervals, windows, measures and pixels shared by the two zones; all functions interp2d which only read what they are given and all minimisers which stay in their bounds", "why_tests_cant": "The margins read around a region are computed before the interpolation widens the disparities by three; tests use images where the costs outside the intervals do not matter.", "anchors": ["pandora2d/refinement/interpolation.py:Interpolation.refinement_method", "pandora2d/refinement/interpolation.py:Interpolation.compute_cost_matrix", "pandora2d/img_tools.py:get_roi_processing", "pandora2d/matching_cost/matching_cost.py:MatchingCost.compute_cost_volumes"]}
{"id": "C146", "title": "Brightness and contrast do not change the disparities given by an interpolation", "statement": "Two successful executions on full images with an interpolation and the same subpixel factor, cost, intervals and invalid value, whatever their steps: when the second images are the first ones after a change of brightness and contrast which the measure does not see (the same shift of both images for sad and ssd, any positive affine change for zncc), with the same flags and the no-data values changed alike, the disparities and the scores are the same at each pixel they share.", "quantifier": "all images, masks, windows, measures, positive factors and shifts of the right image, changes of the left image, steps, subpixel factors, intervals (integers or grids) and invalid values; all functions interp2d which only read what they are given and all minimisers which stay in their bounds", "why_tests_cant": "An invariance over all images and all changes; the code compares values with the no-data value at several places.", "anchors": ["pandora2d/refinement/interpolation.py:Interpolation.refinement_method", "pandora2d/refinement/interpolation.py:Interpolation.compute_cost_matrix", "pandora2d/matching_cost/matching_cost.py:MatchingCost.compute_cost_volumes", "pandora2d/img_tools.py:shift_disp_row_img"]}
{"id": "C147", "title": "The values of the no-data pixels do not matter with an interpolation from whole pixels", "statement": "Two successful executions on full images with an interpolation, disparities of whole pixels and the same cost, intervals and invalid value, whatever their steps: when the left images only differ by the values of the pixels flagged as no-data and the right images only differ by the no-data value, held by the same pixels, the disparities and the scores are the same at each pixel they share.", "quantifier": "all images, masks, no-data values which are numbers, windows, measures, steps, intervals (integers or grids) and invalid values; all functions interp2d which only read what they are given and all minimisers which stay in their bounds", "why_tests_cant": "The interpolation reads costs three disparities outside the intervals and fills the missing ones; tests use one no-data value.", "anchors": ["pandora2d/refinement/interpolation.py:Interpolation.refinement_method", "pandora2d/refinement/interpolation.py:Interpolation.compute_cost_matrix", "pandora2d/matching_cost/matching_cost.py:MatchingCost.compute_cost_volumes", "pandora2d/img_tools.py:shift_disp_row_img"]}
{"id": "C148", "title": "Exchanging rows and columns exchanges the disparities given by an interpolation", "statement": "Two successful executions on full images with an interpolation, disparities of whole pixels and the same cost and invalid value: when the images of the second are the transposed images of the first, with their masks, and its steps and intervals are exchanged, its column disparities are the transposed row disparities of the first, its row disparities the transposed column disparities, and the scores are transposed.", "quantifier": "all images, masks, windows, measures which do not depend on the order of the pixels, steps, intervals (integers or grids) and invalid values; all functions interp2d and minimisers which treat the two axes alike", "why_tests_cant": "The code handles rows and columns by different mechanisms (shifted images, disparities of Pandora, rows of a matrix); tests compare with stored values.", "anchors": ["pandora2d/refinement/interpolation.py:Interpolation.refinement_method", "pandora2d/refinement/interpolation.py:Interpolation.compute_cost_matrix", "pandora2d/matching_cost/matching_cost.py:MatchingCost.compute_cost_volumes", "pandora2d/img_tools.py:shift_disp_row_img"]}
{"id": "C149", "title": "The saved configuration is a standard JSON file which is read back as it was saved", "statement": "The file written by save_config at the end of a successful execution is a standard JSON text (RFC 8259) of the saved configuration; read_config_file reads it as the saved configuration; when the user asks for neither a ROI nor an estimation, an execution on this file writes the same files. A standard text of a configuration is read as this configuration, and a file which is not the text of a dictionary is refused.", "quantifier": "all successful executions, all configurations of any depth, all values (strings, integers, floats, lists, dictionaries)", "why_tests_cant": "A round trip over all dictionaries; the tests save small configurations and never give them to a standard reader.", "anchors": ["pandora2d/__init__.py:main"]}
{"id": "C150", "title": "Mirroring the images opposes the disparities given by an interpolation", "statement": "Two successful executions on full images with an interpolation, a step of one, disparities of whole pixels and the same cost: when the images of the second are those of the first upside down, mirrored left to right, or both, and its intervals are opposed in the mirrored directions, then at each pixel where one pair of disparities is better than the others the disparities of the second, at the mirrored pixel, are those of the first opposed in the mirrored directions, and the scores are the same.", "quantifier": "all images, masks, windows, measures which do not depend on the order of the pixels, intervals (integers or grids) and invalid values; all functions interp2d and minimisers which treat both directions of an axis alike", "why_tests_cant": "The missing costs are filled from one end of the rows; the stored results of the tests only know one orientation.", "anchors": ["pandora2d/refinement/interpolation.py:Interpolation.refinement_method", "pandora2d/refinement/interpolation.py:Interpolation.compute_cost_matrix", "pandora2d/matching_cost/matching_cost.py:MatchingCost.compute_cost_volumes", "pandora2d/img_tools.py:shift_disp_row_img"]}
{"id": "C151", "title": "More no-data never gives a refined disparity, with an interpolation or a dichotomy", "statement": "Two successful executions of main on full images, without estimation, with disparities of whole pixels, the same refinement (an interpolation or a dichotomy), window cost, intervals and invalid value, the second with more pixels flagged as no-data or invalid in its left image and more no-data values in its right image: at every pixel of both rasters where the first has no disparity, the second has neither disparity nor score. When every pair of windows read for the pixel, margins of the refinement included, which could be compared in the first can still be compared in the second, the three values are the same.", "quantifier": "every pair of user dictionaries and of images so related, sizes, masks, grids or integers, window size, window cost, iterations, kernel, interpolation functions, pixel; steps of both for the interpolation; with a dichotomy the invalid value is not a number less than one away from a row interval", "why_tests_cant": "An interpolation replaces the missing costs, and a dichotomy reads costs beyond the interval: a test on a few masks does not show that no mask makes a disparity appear.", "anchors": ["pandora2d/refinement/interpolation.py:Interpolation.refinement_method", "pandora2d/refinement/interpolation.py:Interpolation.compute_cost_matrix", "pandora2d/refinement/dichotomy.py:Dichotomy.refinement_method", "pandora2d/img_tools.py:shift_disp_row_img", "pandora2d/matching_cost/matching_cost.py:MatchingCost.compute_cost_volumes"]}
{"id": "C152", "title": "More no-data never gives a refined disparity nor a better score, with an optical flow", "statement": "Two successful executions of main on full images, without estimation, with disparities of whole pixels, the same optical flow, steps, window cost and intervals, the second with more pixels flagged as no-data or invalid in its left image and more no-data values in its right image: at every pixel, the second has neither score nor disparities, or both have a score and the one of the first is at least as good; a pixel without refined disparity in the first has none in the second; when one pair only reaches the score in the first and can still be compared in the second, the three values are the same.", "quantifier": "every pair of user dictionaries and of images so related, sizes, masks, grids or integers, steps, window sizes, window cost, iterations, pixel; NaN as the invalid value", "why_tests_cant": "Relation between two executions over all images and masks; the tests of the optical flow have no no-data.", "anchors": ["pandora2d/__init__.py:main", "pandora2d/refinement/optical_flow.py:OpticalFlow.refinement_method", "pandora2d/refinement/optical_flow.py:OpticalFlow.optical_flow", "pandora2d/matching_cost/matching_cost.py:MatchingCost.compute_cost_volumes"]}
{"id": "C153", "title": "Larger intervals keep the pixels which have a disparity after an interpolation", "statement": "Two successful executions of main with an interpolation on the same full images, without estimation, with the same subpixel factor and window cost, the intervals of the first being in those of the second at every pixel: at every pixel of both grids, when the first gives a disparity the second gives one too, a number of its own intervals widened by the margins.", "quantifier": "every pair of user dictionaries so related, images, masks, sizes, steps, subpixel factor, window size and window cost, interpolation inside its bounds, pixel", "why_tests_cant": "Relation between two executions over all images and intervals; the tests of the interpolation use one configuration on one pair of images.", "anchors": ["pandora2d/__init__.py:main", "pandora2d/refinement/interpolation.py:Interpolation.refinement_method", "pandora2d/refinement/interpolation.py:Interpolation.compute_cost_matrix", "pandora2d/matching_cost/matching_cost.py:MatchingCost.compute_cost_volumes"]}
{"id": "C154", "title": "A pixel receives refined disparities exactly when two windows of its intervals can be compared", "statement": "After a successful execution of main on full images, without estimation, with a window cost and disparities of whole pixels, and with a dichotomy, an interpolation or an optical flow, a pixel of the rasters has disparities exactly when, for some pair of its intervals, the two windows are inside the images read, without no-data, and the left centre is valid; with a dichotomy these disparities stay in its intervals; with an optical flow a pixel without a score has no disparities.", "quantifier": "every user dictionary, image size, grids or integers, steps, window size, masks of the left image, no-data, finite image values, measure which is not NaN on finite windows, iterations, filter, interpolation inside its bounds", "why_tests_cant": "needs all the images and no-data; the tests of the refinements start from complete cost volumes", "anchors": ["pandora2d/__init__.py:main", "pandora2d/refinement/optical_flow.py:OpticalFlow.refinement_method", "pandora2d/refinement/dichotomy.py:Dichotomy.refinement_method", "pandora2d/refinement/interpolation.py:Interpolation.refinement_method", "pandora2d/refinement/interpolation.py:Interpolation.compute_cost_matrix", "pandora2d/matching_cost/matching_cost.py:MatchingCost.compute_cost_volumes"]}
{"id": "C155", "title": "The steps only choose the pixels of the rasters, with an optical flow", "statement": "Two successful executions of main with an optical flow on the same full images, without estimation, with the same intervals, subpixel factor, window cost, invalid value, window and iterations, and different steps: at every pixel of both rasters the three values are the same.", "quantifier": "every pair of user dictionaries so related, images, masks, sizes, grids or integers, steps, subpixel factor, window size, window cost, solver, resampling, iterations, pixel", "why_tests_cant": "Relation between two executions over all images and steps; the tests of the optical flow use steps of one or compare shapes.", "anchors": ["pandora2d/__init__.py:main", "pandora2d/refinement/optical_flow.py:OpticalFlow.refinement_method", "pandora2d/refinement/optical_flow.py:OpticalFlow.reshape_to_matching_cost_window", "pandora2d/matching_cost/matching_cost.py:MatchingCost.compute_cost_volumes"]}
{"id": "C156", "title": "More pairs of disparities never worsen the score, with an optical flow", "statement": "Two successful executions of main with an optical flow on the same full images, without estimation, with the same window cost, the subpixel factor of the second being a multiple of that of the first and the intervals of the first being in those of the second at every pixel: at every pixel of both rasters, the score of the first is its invalid value or both have a score and that of the second is at least as good, whatever the steps, the iterations, the windows of the flow and the invalid values.", "quantifier": "every pair of user dictionaries so related, images, masks, sizes, grids or integers, steps, subpixel factors, window size, window cost, measure, iterations, pixel; linear resampling of the rows", "why_tests_cant": "Relation between two executions over all images, intervals and subpixel factors; the tests of the optical flow use one configuration.", "anchors": ["pandora2d/__init__.py:main", "pandora2d/refinement/optical_flow.py:OpticalFlow.refinement_method", "pandora2d/matching_cost/matching_cost.py:MatchingCost.compute_cost_volumes", "pandora2d/img_tools.py:shift_subpix_img"]}
{"id": "C157", "title": "The steps only choose the pixels, with an interpolation", "statement": "Two successful executions of main with an interpolation on the same full images, without estimation, with the same intervals, subpixel factor, window cost, measure and invalid value: whatever the steps of each, the rasters have exactly the pixels of their steps, and the refined row, the refined column and the score are the same at every pixel the two rasters share.", "quantifier": "every pair of user dictionaries which differ by their steps, images, masks, sizes, grids or integers, subpixel factor, window size, window cost, measure, pixel; every spline and optimiser within the contracts", "why_tests_cant": "Relation between two executions over all images, steps and intervals; the unit tests of the interpolation set no step.", "anchors": ["pandora2d/__init__.py:main", "pandora2d/refinement/interpolation.py:Interpolation.refinement_method", "pandora2d/refinement/interpolation.py:Interpolation.compute_cost_matrix", "pandora2d/matching_cost/matching_cost.py:MatchingCost.compute_cost_volumes"]}
{"id": "C158", "title": "The invalid value only marks pixels, with an interpolation", "statement": "Two successful executions of main with an interpolation which starts from whole pixels on the same full images, without estimation, with the same intervals and a window cost which is a number for finite values: whatever their invalid values and their steps, every pixel they share has the same three values, or the invalid value of each execution.", "quantifier": "every pair of user dictionaries which differ by their invalid value and their steps, images, masks, sizes, grids or integers, window size, window cost, measure, pixel; every spline and optimiser within the contracts", "why_tests_cant": "Relation between two executions over all images and invalid values; the unit tests of the interpolation never change the invalid value of a whole execution.", "anchors": ["pandora2d/__init__.py:main", "pandora2d/refinement/interpolation.py:Interpolation.refinement_method", "pandora2d/refinement/interpolation.py:Interpolation.compute_cost_matrix", "pandora2d/disparity/disparity.py:Disparity.compute_disp_maps"]}
{"id": "C159", "title": "The invalid value only marks pixels, with an optical flow", "statement": "Two successful executions of main with an optical flow on the same full images, without estimation, with the same intervals, steps, subpixel factor, window cost, half window and iterations: whatever their invalid values, every pixel has the same refined disparities and score, or the invalid value of each execution.", "quantifier": "every pair of user dictionaries which differ by their invalid value, images, masks, sizes, grids or integers, steps, window, iterations, window cost, measure, pixel; every least squares solver and resampling", "why_tests_cant": "Relation between two executions over all images and invalid values; the unit tests of the optical flow use one invalid value and never compare two executions.", "anchors": ["pandora2d/__init__.py:main", "pandora2d/refinement/optical_flow.py:OpticalFlow.refinement_method", "pandora2d/refinement/optical_flow.py:OpticalFlow.lucas_kanade_core_algorithm", "pandora2d/disparity/disparity.py:Disparity.compute_disp_maps"]}
{"id": "C160", "title": "The invalid value only marks pixels, with a dichotomy", "statement": "Two successful executions of main with a dichotomy on the same full images, without estimation, with the same intervals, subpixel factor, window cost, iterations and filter: whatever their invalid values, every pixel has the same refined disparities and score, or the invalid value of each execution.", "quantifier": "every pair of user dictionaries which differ by their invalid value, images, masks, sizes, grids or integers, window cost, measure, number of iterations, filter, pixel", "why_tests_cant": "Relation between two executions over all images and invalid values; the unit tests of the dichotomy use one invalid value, outside the intervals, and never compare two executions.", "anchors": ["pandora2d/__init__.py:main", "pandora2d/refinement/dichotomy.py:Dichotomy.refinement_method", "pandora2d/disparity/disparity.py:Disparity.compute_disp_maps"]}
