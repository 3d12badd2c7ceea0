{
 "claims": [
  {
   "property": "C01",
   "status": "proved",
   "theorems": [
    "Verif.Props.C01_extrema_split_col",
    "Verif.Props.C01_extrema_split_row",
    "Verif.Props.C01_get_score",
    "Verif.Props.C01_arg_split",
    "Verif.Props.C01_any_split",
    "Verif.Props.C01_pixel_alone",
    "Verif.Props.C01_as_single_pixels"
   ],
   "note": "every image size; the split points of the code and any other sorted ones"
  },
  {
   "property": "C02",
   "status": "proved",
   "theorems": [
    "Verif.Props.C02_score_is_best",
    "Verif.Props.empty_range_raises",
    "Verif.Props.maps_exist"
   ],
   "note": ""
  },
  {
   "property": "C03",
   "status": "proved",
   "theorems": [
    "Verif.Props.C03_invalid_iff_no_candidate",
    "Verif.Props.C03_invalid_iff"
   ],
   "note": ""
  },
  {
   "property": "C04",
   "status": "proved",
   "theorems": [
    "Verif.Props.C04_col_range_exact",
    "Verif.Props.C04_row_range_exact",
    "Verif.Props.C04_margins_never_selected",
    "Verif.Props.C04_after_matching_cost"
   ],
   "note": ""
  },
  {
   "property": "C05",
   "status": "partial",
   "theorems": [
    "Verif.Props.C05_false_with_ties",
    "Verif.Props.C05_pair_attains_score_partial",
    "Verif.Props.C05_unique_best_partial"
   ],
   "note": "false of the code in general: rows and columns are reduced separately, so with ties the pair (row, col) may not attain the score. Negation proved with a witness; exact condition proved."
  },
  {
   "property": "C06",
   "status": "proved",
   "theorems": [
    "Verif.Props.C06_lowest_disparity"
   ],
   "note": ""
  },
  {
   "property": "C07",
   "status": "proved",
   "theorems": [
    "Verif.Props.C07_cost_volumes_unchanged"
   ],
   "note": ""
  },
  {
   "property": "C08",
   "status": "proved",
   "theorems": [
    "Verif.Props.C08_row_masking_exact",
    "Verif.Props.C08_col_masking_exact",
    "Verif.Props.C08_row_masking_index_error"
   ],
   "note": ""
  },
  {
   "property": "C09",
   "status": "proved",
   "theorems": [
    "Verif.Props.C09_configured_range",
    "Verif.Props.C09_own_range",
    "Verif.Props.C09_variable_ranges_with_step_raise",
    "Verif.Props.C09_false_for_other_widths"
   ],
   "note": "holds whenever the volumes are computed from configured disparities, any step. With a step that skips pixels and a variable grid the code always raises IndexError (proved). For hand-made ranges of different widths the property is false (witness)."
  },
  {
   "property": "C10",
   "status": "proved",
   "theorems": [
    "Verif.Props.C10_right_range_opposite",
    "Verif.Props.C10_left_range_centred",
    "Verif.Props.single_row_or_col_grid_raises"
   ],
   "note": "error branch: a grid crop of one row or one column raises"
  },
  {
   "property": "C100",
   "status": "proved",
   "theorems": [
    "Verif.Props.C100_values_only"
   ],
   "note": "Same full images, window cost (a cost which reads the windows and the displacement only), contracts DiskContract, PandoraContract, PandoraKeeps."
  },
  {
   "property": "C101",
   "status": "proved",
   "theorems": [
    "Verif.Props.C101_finer_never_worse",
    "Verif.Props.slab_finer"
   ],
   "note": "As C100, with the linear resampling of the rows (order 1) and, in the columns, the resampling of the window cost; with the spline orders of Pandora above 1 the resampled columns are not modelled."
  },
  {
   "property": "C102",
   "status": "proved",
   "theorems": [
    "Verif.Props.C102_estimation_is_its_result",
    "Verif.Props.est_sample",
    "Verif.Props.side_completed"
   ],
   "note": "Full images, finite shifts, contracts DiskContract and PandoraContract; the correlation of scikit-image is a parameter of the world. The completed configurations written at the end differ (the first has the results of the estimation)."
  },
  {
   "property": "C103",
   "status": "partial",
   "theorems": [
    "Verif.Props.C103_given_exactly_partial",
    "Verif.Props.C103_false",
    "Verif.Props.window_exists"
   ],
   "note": "False of the code for the mask of the right image (C103_false: all the pixels of the right image are declared invalid by the user and the execution still gives disparities). Proved as an equivalence for everything else: borders, no-data of both images, invalid pixels of the left image. Costs follow the windowCost idealisation of Pandora; subpix 1."
  },
  {
   "property": "C104",
   "status": "proved",
   "theorems": [
    "Verif.Props.C104_local",
    "Verif.Props.window_local",
    "Verif.Props.displaced_local"
   ],
   "note": "Full images, contracts DiskContract and PandoraContract for the two worlds; costs follow the windowCost idealisation of Pandora with an arbitrary kernel; resampling zoomLinear. The sizes of the rasters are part of the conclusion."
  },
  {
   "property": "C105",
   "status": "proved",
   "theorems": [
    "Verif.Props.C105_runs_exactly_roi",
    "Verif.Props.dispBounds_hull",
    "Verif.Props.crop_constant",
    "Verif.Props.zone_near"
   ],
   "note": "Under RunContract (as C81), integer steps, without estimation nor optical flow; the margins of the pipeline are those Pandora's GlobalMargins gives for the margins recorded by the check."
  },
  {
   "property": "C106",
   "status": "proved",
   "theorems": [
    "Verif.Props.C106_transposed",
    "Verif.Props.whole_rasters",
    "Verif.Props.window_whole",
    "Verif.Props.wholeCost_transposed",
    "Verif.Props.sumOf_orderFree"
   ],
   "note": "Full images, subpix 1, contracts DiskContract and PandoraContract for the two worlds; costs follow the windowCost idealisation of Pandora; the no-data value of the right image is not NaN."
  },
  {
   "property": "C107",
   "status": "proved",
   "theorems": [
    "Verif.Props.C107_goes_back",
    "Verif.Props.comparable_exchanged",
    "Verif.Props.pairs_exchanged",
    "Verif.Props.sad_symmetric",
    "Verif.Props.ssd_symmetric"
   ],
   "note": "Full images, subpix 1, contracts and idealisation as C106. The row and the column disparity of a pixel may come from two different pairs (C87), hence the two existence statements."
  },
  {
   "property": "C108",
   "status": "partial",
   "theorems": [
    "Verif.Props.C108_mirrored_partial",
    "Verif.Props.C108_false",
    "Verif.Props.reaches_mirrored",
    "Verif.Props.turned_range",
    "Verif.Props.chosen_moved"
   ],
   "note": "False of the code with ties: the smallest disparity is taken in both executions (C108_false, constant images). Proved: the scores are always equal, and the disparities are opposed when one pair only reaches the score. Contracts and idealisation as C106."
  },
  {
   "property": "C109",
   "status": "proved",
   "theorems": [
    "Verif.Props.C109_regraded",
    "Verif.Props.sad_affine",
    "Verif.Props.ssd_affine",
    "Verif.Props.sumOf_affine"
   ],
   "note": "Contracts and idealisation as C106; sad_affine and ssd_affine are the instances for affine changes."
  },
  {
   "property": "C11",
   "status": "proved",
   "theorems": [
    "Verif.Props.C11_source_is_tight_hull"
   ],
   "note": ""
  },
  {
   "property": "C110",
   "status": "proved",
   "theorems": [
    "Verif.Props.C110_overlap",
    "Verif.Props.reaches_overlap"
   ],
   "note": "Contracts and idealisation as C106, the two worlds having images of different sizes."
  },
  {
   "property": "C111",
   "status": "proved",
   "theorems": [
    "Verif.Props.C111_more_nodata",
    "Verif.Props.chosen_fewer"
   ],
   "note": "Contracts and idealisation as C106."
  },
  {
   "property": "C112",
   "status": "partial",
   "theorems": [
    "Verif.Props.C112_nodata_value_partial",
    "Verif.Props.C112_false",
    "Verif.Props.full_rasters",
    "Verif.Props.comparable_nodata",
    "Verif.Props.pairs_nodata"
   ],
   "note": "False of the code with disparities of fractions of pixels: row_zoom_img interpolates the rows from the no-data values, and shift_disp_row_img then only flags the exact no-data value (C112_false: no-data values -1 and -500 give different scores with subpix 2). Proved for disparities of whole pixels. Contracts and idealisation as C106."
  },
  {
   "property": "C113",
   "status": "proved",
   "theorems": [
    "Verif.Props.C113_interp_against_not"
   ],
   "note": "Contracts as C106; scipy minimize is a parameter which stays within its bounds (BoundsContract) and interp2d is a parameter."
  },
  {
   "property": "C114",
   "status": "proved",
   "theorems": [
    "Verif.Props.C114_brightness",
    "Verif.Props.full_rasters",
    "Verif.Props.window_seen",
    "Verif.Props.displaced_seen",
    "Verif.Props.affine_lerp",
    "Verif.Props.best_seen"
   ],
   "note": "Contracts and idealisation as C106 (exact arithmetic: a float gain would round); linear zoom of rows (scipy.ndimage.zoom order 1)."
  },
  {
   "property": "C115",
   "status": "proved",
   "theorems": [
    "Verif.Props.C115_mirrored",
    "Verif.Props.displaced_mirrored",
    "Verif.Props.sample_mirrored",
    "Verif.Props.window_mirrored",
    "Verif.Props.interval_mirrored",
    "Verif.Props.best_moved"
   ],
   "note": "Contracts and idealisation as C106, linear zoom of rows. With ties the smallest disparities are taken in both executions (C108_false), so the disparities are only compared when a single pair has the best cost."
  },
  {
   "property": "C116",
   "status": "proved",
   "theorems": [
    "Verif.Props.C116_overlap",
    "Verif.Props.displaced_at",
    "Verif.Props.displaced_scene",
    "Verif.Props.window_scene"
   ],
   "note": "Contracts and idealisation as C106, linear zoom of rows."
  },
  {
   "property": "C117",
   "status": "partial",
   "theorems": [
    "Verif.Props.C117_tiles_agree_partial",
    "Verif.Props.C117_false",
    "Verif.Props.Stages.tile",
    "Verif.Props.asked_range_at"
   ],
   "note": "False of the code near the borders: get_roi_processing takes the largest of the disparities and of the half window as margin, not their sum, so a pixel of the border of one region may have no cost there and one in the other region (C117_false). Proved for the pixels whose window is inside both regions. Contracts as C90, and WholeReadable: an image of which a region can be read can be read in whole."
  },
  {
   "property": "C118",
   "status": "partial",
   "theorems": [
    "Verif.Props.C118_exchanged_fractions_partial",
    "Verif.Props.C118_false",
    "Verif.Props.lin_swap",
    "Verif.Props.window_ok_clear",
    "Verif.Props.window_transposed"
   ],
   "note": "False of the code when the right image holds no-data: a row between two rows is interpolated from the no-data value and then only compared with it, a column between a no-data pixel and another one has no cost (C118_false: the same symmetric images, read once each way, give the score zero on one side only). Proved when every value of the right image is a number above its no-data value. Contracts as C115: the zoom of scipy is linear, the measures do not depend on the order of the pixels."
  },
  {
   "property": "C119",
   "status": "proved",
   "theorems": [
    "Verif.Props.C119_searched_files",
    "Verif.Props.C119_sinc_kernel",
    "Verif.Props.method_searched",
    "Verif.Props.bestMove_unique",
    "Verif.Props.path_unique",
    "Verif.Props.searchedPixel_unique",
    "Verif.Props.bicubic_kernel",
    "Verif.Props.sinc_weights"
   ],
   "note": "Spec/Searched.lean states the kernels, the interpolated value as a double sum over the samples around the position, the choice among the nine moves and the search as an inductive relation, without the arrays, windows or masks of the model. searchedPixel_unique shows that the relation determines the result. The costs read for the filter are those of the pixel, NaN when the disparity belongs only to the intervals of other pixels. The cardinal sine is over the reals (C119_sinc_kernel). Contracts: rasterio, pandora and the measures as in C87, the zoom of scipy is linear."
  },
  {
   "property": "C12",
   "status": "proved",
   "theorems": [
    "Verif.Props.C12_decomposition",
    "Verif.Props.C12_sampled_at_label"
   ],
   "note": "linear zoom (order 1) idealised; exact arithmetic"
  },
  {
   "property": "C120",
   "status": "proved",
   "theorems": [
    "Verif.Props.C120_more_iterations",
    "Verif.Props.path_onward",
    "Verif.Props.path_near",
    "Verif.Props.searched_further"
   ],
   "note": "The two executions have the same kernel: the bicubic filter, or the same size of cardinal sine, whose coefficients do not depend on the number of iterations over the reals (C119_sinc_kernel). Contracts as C119."
  },
  {
   "property": "C121",
   "status": "proved",
   "theorems": [
    "Verif.Props.C121_local_dichotomy",
    "Verif.Props.searched_scaled",
    "Verif.Props.path_scaled",
    "Verif.Props.filtered_scaled",
    "Verif.Props.node_inside",
    "Verif.Props.extent_same"
   ],
   "note": "The intervals are those of all the pixels: with a grid the filter reads the costs beyond the first and the last disparity of the image, so that its samples depend on the intervals of the other pixels (seen, in C119). Contracts as C119."
  },
  {
   "property": "C122",
   "status": "proved",
   "theorems": [
    "Verif.Props.C122_brightness_dichotomy",
    "Verif.Props.searched_scaled",
    "Verif.Props.path_scaled",
    "Verif.Props.filtered_scaled",
    "Verif.Props.tried_scaled"
   ],
   "note": "The measure is scaled exactly (arithmetic on an ordered field, not on floats). Contracts as C119."
  },
  {
   "property": "C123",
   "status": "proved",
   "theorems": [
    "Verif.Props.C123_quadratic_optimum",
    "Verif.Props.filtered_bowl",
    "Verif.Props.keys_quadratic",
    "Verif.Props.path_bowl",
    "Verif.Props.bowl_winner",
    "Verif.Props.searched_bowl"
   ],
   "note": "On exact numbers (field K): the rounding of the floats is not modelled. The statement speaks of the costs of Pandora for the displaced images, the bicubic kernel is the one of the specification of C119."
  },
  {
   "property": "C124",
   "status": "partial",
   "theorems": [
    "Verif.Props.C124_flow_keeps",
    "Verif.Props.C124_dichotomy_keeps_partial",
    "Verif.Props.C124_dichotomy_moves",
    "Verif.Props.translated_best",
    "Verif.Props.flow_kept",
    "Verif.Props.path_kept"
   ],
   "note": "Proved for the optical flow. For a dichotomy the claim is false: C124_dichotomy_moves gives a run on two equal images where the best pixel moves and its score is negative; C124_dichotomy_keeps_partial proves what holds, when the interpolated costs around the match are positive. On exact numbers."
  },
  {
   "property": "C125",
   "status": "proved",
   "theorems": [
    "Verif.Props.C125_runs_exactly_roi"
   ],
   "note": "Equivalence, both directions, for no refinement, interpolation, dichotomy and optical flow with a ROI; the pixels read are given by the specification NearRoi and the points by FlowAxis. C105 is now its restriction without optical flow. exFlowBand_exactly: rows 2 to 7 with a step of two run, rows 1 to 8 raise."
  },
  {
   "property": "C126",
   "status": "proved",
   "theorems": [
    "Verif.Props.C126_runs_exactly_estimated",
    "Verif.Props.C126_needs_disparities"
   ],
   "note": "Equivalence, both directions, for every pair of disparities around the ROI (specification RegionDisp, from the configuration of the user alone), and C126_needs_disparities: without such disparities, or with an integer and a grid, main does not end. With C99 (no ROI), C105 and C125 (ROI, no estimation) the accepted configurations with a disparity step which run are characterised. exEstBand_exactly: rows 3 to 6 with a step of two and an optical flow run with an initial disparity of 0 and raise when no disparity is given."
  },
  {
   "property": "C127",
   "status": "proved",
   "theorems": [
    "Verif.Props.C127_brightness_flow"
   ],
   "note": "Same gain and offset on both images; contracts on the solver and the resampling are hypotheses, met by least squares in the example."
  },
  {
   "property": "C128",
   "status": "proved",
   "theorems": [
    "Verif.Props.C128_local_flow"
   ],
   "note": "The resampling only depends on the values of the window."
  },
  {
   "property": "C129",
   "status": "proved",
   "theorems": [
    "Verif.Props.C129_transposed_flow"
   ],
   "note": "The solver and the resampling are external: their behaviour on exchanged axes is a hypothesis, met by the normal equations of the example."
  },
  {
   "property": "C13",
   "status": "proved",
   "theorems": [
    "Verif.Props.C13_axes_full_lattice"
   ],
   "note": ""
  },
  {
   "property": "C130",
   "status": "proved",
   "theorems": [
    "Verif.Props.C130_mirrored_flow"
   ],
   "note": "As in C115, the disparities are compared when one pair only reaches the score: ties are broken toward the smallest disparities, which a mirror changes."
  },
  {
   "property": "C131",
   "status": "proved",
   "theorems": [
    "Verif.Props.C131_overlap_flow"
   ],
   "note": "A pixel close to the border of one frame only is not refined in this frame, hence the hypothesis on both."
  },
  {
   "property": "C132",
   "status": "proved",
   "theorems": [
    "Verif.Props.C132_overlap_dichotomy"
   ],
   "note": "The first and last disparities of the intervals matter because the interpolation is centred differently at the ends of the volume."
  },
  {
   "property": "C133",
   "status": "partial",
   "theorems": [
    "Verif.Props.C133_zones_agree_dichotomy_partial",
    "Verif.Props.C133_false"
   ],
   "note": "Proved at the pixels whose window, extended by the samples of the kernel, is inside both zones. The full statement is false of the code (C133_false): get_roi_processing takes the largest of the disparity and of the margins instead of their sum, so the displaced window of a pixel close to the border of the region is not read and the pixel is invalid, while it has a disparity in the full images."
  },
  {
   "property": "C134",
   "status": "partial",
   "theorems": [
    "Verif.Props.C134_transposed_dichotomy_partial",
    "Verif.Props.C134_false"
   ],
   "note": "Proved at the pixels where the search never has to choose between two best moves. The full statement is false of the code (C134_false): search_new_best_point takes the first best move by rows and then by columns, so on an image which is its own transposed image the search moves along the columns in both executions."
  },
  {
   "property": "C135",
   "status": "proved",
   "theorems": [
    "Verif.Props.C135_mirrored_dichotomy"
   ],
   "note": "The condition on the costs is needed because the four samples are not centred on whole positions: a NaN two pixels after a whole position spoils it, a NaN two pixels before does not."
  },
  {
   "property": "C136",
   "status": "partial",
   "theorems": [
    "Verif.Props.C136_zones_agree_flow_partial",
    "Verif.Props.C136_false"
   ],
   "note": "Proved for the scores of the pixels whose window is inside both zones and for the refined disparities of those which also have points of both zones on each side, half a window away. The full statement is false of the code (C136_false): get_roi_processing takes the largest of the disparity and of the margins instead of their sum, so the displaced window of a pixel close to the border of the region is not read and the pixel has no score, while it has one in the full images."
  },
  {
   "property": "C137",
   "status": "proved",
   "theorems": [
    "Verif.Props.C137_nodata_value_dichotomy"
   ],
   "note": "Disparities of fractions of pixels before the refinement are outside the statement: the rows between two rows are interpolated from the no-data values (C112_false)."
  },
  {
   "property": "C138",
   "status": "partial",
   "theorems": [
    "Verif.Props.C138_nodata_value_flow_partial",
    "Verif.Props.C138_false"
   ],
   "note": "The full claim is false (C138_false): when two pairs of disparities reach the score, the row disparity comes from one and the column disparity from the other, and the window of the refinement may hold no-data values. The theorem covers every score, the pixels without a score, and the refined disparities of the pixels whose score is reached by one pair only."
  },
  {
   "property": "C139",
   "status": "partial",
   "theorems": [
    "Verif.Props.C139_report_read_partial",
    "Verif.Props.C139_report_file_partial",
    "Verif.Props.C139_false",
    "Verif.Props.readJson_dump"
   ],
   "note": "the text is standard exactly when each raster has a valid pixel (the rasters of a complete execution hold no infinity, whatever the refinement): json.dump writes the word NaN when nothing is valid, shown by an execution which succeeds"
  },
  {
   "property": "C14",
   "status": "proved",
   "theorems": [
    "Verif.Props.C14_row_shift"
   ],
   "note": ""
  },
  {
   "property": "C140",
   "status": "partial",
   "theorems": [
    "Verif.Props.C140_wider_dichotomy_partial",
    "Verif.Props.C140_false",
    "Verif.Props.searched_nested"
   ],
   "note": "proved when all the pixels have the same intervals in each execution (integers). False with grids: the disparities of other pixels only have no cost, and the filter then misses samples at a pixel whose best pair is inside its own intervals, shown by two executions which succeed"
  },
  {
   "property": "C141",
   "status": "proved",
   "theorems": [
    "Verif.Props.C141_wider_flow",
    "Verif.Props.inside_nested",
    "Verif.Props.best_nested"
   ],
   "note": "the same images and configurations but for the intervals, integers or grids"
  },
  {
   "property": "C142",
   "status": "proved",
   "theorems": [
    "Verif.Props.C142_more_iterations_flow",
    "Verif.Props.trajectory_more",
    "Verif.Props.inside_more"
   ],
   "note": "the same images and configurations but for the number of iterations"
  },
  {
   "property": "C143",
   "status": "proved",
   "theorems": [
    "Verif.Props.C143_local_interpolation",
    "Verif.Props.filled_unique",
    "Verif.Props.interp_same"
   ],
   "note": "Contracts as C97, and ReadsInside (interp2d only reads the elements of its axes and of its matrix), which exI_reads shows satisfiable."
  },
  {
   "property": "C144",
   "status": "proved",
   "theorems": [
    "Verif.Props.C144_overlap_interpolation",
    "Verif.Props.interp_moved"
   ],
   "note": "Contracts as C143. Example on frames of six and seven rows."
  },
  {
   "property": "C145",
   "status": "partial",
   "theorems": [
    "Verif.Props.C145_zones_agree_interpolation_partial",
    "Verif.Props.C145_false"
   ],
   "note": "The full statement is C145Statement and is false (C145_false). Proved for the pixels whose window, extended by three pixels on each side, is inside both zones (InsideExtended hw 3 3). The no-data value of the right image must be a number."
  },
  {
   "property": "C146",
   "status": "proved",
   "theorems": [
    "Verif.Props.C146_brightness_interpolation",
    "Verif.Props.interpolated_agree"
   ],
   "note": "Contracts as C143. A change which multiplies the measure is not covered: the minimiser of scipy has absolute tolerances."
  },
  {
   "property": "C147",
   "status": "proved",
   "theorems": [
    "Verif.Props.C147_nodata_value_interpolation",
    "Verif.Props.interpolated_agree"
   ],
   "note": "Contracts as C143."
  },
  {
   "property": "C148",
   "status": "partial",
   "theorems": [
    "Verif.Props.C148_transposed_interpolation_partial",
    "Verif.Props.C148_false",
    "Verif.Props.interp_exchanged"
   ],
   "note": "Proved at the pixels whose interval is the whole range and whose costs all exist. False elsewhere (C148_false): np.interp fills the missing costs from the indices of the rows only. Contracts as C143, plus Exchanges: interp2d and minimize treat the two axes alike."
  },
  {
   "property": "C149",
   "status": "partial",
   "theorems": [
    "Verif.Props.C149_config_file_partial",
    "Verif.Props.C149_standard_read",
    "Verif.Props.C149_other_refused",
    "Verif.Props.C149_nan_not_standard",
    "Verif.Props.C149_false",
    "Verif.Props.load_iff",
    "Verif.Props.standard_iff"
   ],
   "note": "The file is a standard JSON text exactly when the saved configuration holds neither NaN nor infinity. False otherwise (C149_false): with invalid_disparity NaN the file holds the word NaN. White space, digits and escape sequences are left out: a text is the list of its tokens. numpy scalars, which json.dump refuses, are not in the model."
  },
  {
   "property": "C15",
   "status": "partial",
   "theorems": [
    "Verif.Props.C15_false_mask_lost",
    "Verif.Props.C15_nodata_stays_invalid_partial"
   ],
   "note": "false of the code: the mask of the right image is rebuilt from the no-data value, an invalid pixel of the input mask is lost. Negation proved; no-data part proved."
  },
  {
   "property": "C150",
   "status": "partial",
   "theorems": [
    "Verif.Props.C150_mirrored_interpolation_partial",
    "Verif.Props.C150_false",
    "Verif.Props.interp_mirrored"
   ],
   "note": "Proved at the pixels whose interval is the whole range and whose costs all exist. False elsewhere (C150_false): a missing cost takes the last known cost of its row. Contracts: Mirrors (interp2d and minimize treat both directions of an axis alike) and the bounds of minimize."
  },
  {
   "property": "C151",
   "status": "proved",
   "theorems": [
    "Verif.Props.C151_more_nodata_interpolation",
    "Verif.Props.C151_more_nodata_dichotomy",
    "Verif.Props.comparable_less",
    "Verif.Props.wholeCost_less"
   ],
   "note": "Contracts as C143 and C137."
  },
  {
   "property": "C152",
   "status": "partial",
   "theorems": [
    "Verif.Props.C152_more_nodata_flow_partial",
    "Verif.Props.C152_false"
   ],
   "note": "Proved: the scores, and the disparities of the pixels whose only best pair can still be compared. False for the refined disparities of the others (C152_false): a start at the end of an interval gives no refined disparity, the next best pair may give one. Contracts as C138."
  },
  {
   "property": "C153",
   "status": "partial",
   "theorems": [
    "Verif.Props.C153_wider_keeps_interpolated_partial",
    "Verif.Props.C153_false"
   ],
   "note": "Proved when the larger intervals are the same for all the pixels (integers). False with grids (C153_false): the costs of the margins are read, those between the interval of a pixel and the smallest or greatest disparity of all the pixels are not, so a cost read with a smaller interval may not be read with a larger one."
  },
  {
   "property": "C154",
   "status": "partial",
   "theorems": [
    "Verif.Props.C154_given_dichotomy",
    "Verif.Props.C154_given_interpolation_partial",
    "Verif.Props.C154_given_flow_partial",
    "Verif.Props.C154_false",
    "Verif.Props.C154_flow_false"
   ],
   "note": "Proved as an equivalence for a dichotomy, with the disparities in their intervals. With an interpolation, proved with the pairs it reads: those of the intervals of the pixel and those of the margins. The full statement is false for it (C154_false): a cost of the margins alone gives a disparity. With an optical flow and NaN as the invalid value, proved for the scores, and a pixel without a score has no disparities; false for the disparities (C154_flow_false): a pixel whose best pair is at the end of an interval has a score and no refined disparity."
  },
  {
   "property": "C155",
   "status": "partial",
   "theorems": [
    "Verif.Props.C155_steps_flow_partial",
    "Verif.Props.C155_false"
   ],
   "note": "Proved: the scores are the same, and the refined disparities too at the pixels which have computed points on each side, half a window away, in both executions or in none; elsewhere the execution without such points gives the invalid value. False otherwise (C155_false): with one row out of two the last computed row has no point after it and is invalid, while it is refined when all the rows are computed."
  },
  {
   "property": "C156",
   "status": "proved",
   "theorems": [
    "Verif.Props.C156_flow_never_worse",
    "Verif.Props.slab_finer",
    "Verif.Props.cost_wider"
   ],
   "note": "For window costs and a linear resampling of the rows (contract on scipy zoom). The refined disparities may be lost with a finer factor: the claim is about the scores."
  },
  {
   "property": "C157",
   "status": "proved",
   "theorems": [
    "Verif.Props.C157_steps_interpolation"
   ],
   "note": "For window costs. Contracts on interp2d and minimize: minimize stays within its bounds, interp2d only reads what its arguments hold. Unlike the optical flow (C155_false), the steps do not change the refined values."
  },
  {
   "property": "C158",
   "status": "partial",
   "theorems": [
    "Verif.Props.C158_invalid_interpolation_partial",
    "Verif.Props.C158_false",
    "Verif.Props.interp_number"
   ],
   "note": "Proved: the same pixels have NaN, and the values are the same at every pixel where two windows displaced by a pair of its intervals can be compared. False elsewhere: where only the margins of the refinement hold a cost, the minimisation starts from the invalid value, and the disparities written depend on it."
  },
  {
   "property": "C159",
   "status": "partial",
   "theorems": [
    "Verif.Props.C159_invalid_flow_partial",
    "Verif.Props.C159_far_flow_partial",
    "Verif.Props.C159_false",
    "Verif.Props.trajectory_solvable",
    "Verif.Props.startShift_other",
    "Verif.Props.trajectory_both"
   ],
   "note": "Proved: the scores are the same or each is its invalid value; the refined disparities too, at every pixel which has a score, whose left window has a least squares solution, when no invalid value is a number of its intervals. C159_far_flow_partial: also at the pixels without a score, when the invalid values are NaN or at least as far from the intervals as there are iterations. False otherwise: a disparity equal to the invalid value is taken for a pixel without disparity, and its flow starts from another window."
  },
  {
   "property": "C16",
   "status": "proved",
   "theorems": [
    "Verif.Props.C16_cell_any_step",
    "Verif.Props.C16_cell_own_range",
    "Verif.Props.C16_cell_step_one",
    "Verif.Props.C16_cell_constant",
    "Verif.Props.C16_nan_when_outside",
    "Verif.Props.volumes_exist_step_one",
    "Verif.Props.volumes_exist_constant",
    "Verif.Props.windowCost_contract"
   ],
   "note": "Pandora cost is a parameter with a recorded contract"
  },
  {
   "property": "C160",
   "status": "partial",
   "theorems": [
    "Verif.Props.C160_invalid_dichotomy_partial",
    "Verif.Props.C160_false",
    "Verif.Props.searched_other"
   ],
   "note": "Proved: at every pixel such that no invalid value is a number of its intervals, the same score (NaN without a pair) and the same disparities or each invalid value. False otherwise: a disparity equal to the invalid value loses its score and is not refined."
  },
  {
   "property": "C17",
   "status": "proved",
   "theorems": [
    "Verif.Props.C17_coordinates_without_roi",
    "Verif.Props.C17_coordinates_with_roi"
   ],
   "note": ""
  },
  {
   "property": "C18",
   "status": "proved",
   "theorems": [
    "Verif.Props.C18_margins_cover_disparities",
    "Verif.Props.C18_idempotent",
    "Verif.Props.C18_mixed_raises",
    "Verif.Props.C18_window_not_covered"
   ],
   "note": ""
  },
  {
   "property": "C19",
   "status": "proved",
   "theorems": [
    "Verif.Props.C19_roi_exactly",
    "Verif.Props.C19_after_matching_cost"
   ],
   "note": ""
  },
  {
   "property": "C20",
   "status": "partial",
   "theorems": [
    "Verif.Props.C20_same_cost_partial",
    "Verif.Props.C20_roi_cost_is_full_cost",
    "Verif.Props.C20_false"
   ],
   "note": "Every cost of the ROI run equals the cost of the full run at the same coordinates and pair; equality including missing costs when the margins cover the displaced window. The statement without that condition is false (C20_false). Costs follow the windowCost idealisation; sub-pixel data by linear column interpolation."
  },
  {
   "property": "C21",
   "status": "proved",
   "theorems": [
    "Verif.Props.C21_without_roi",
    "Verif.Props.C21_with_roi",
    "Verif.Props.C21_coordinates_without_roi",
    "Verif.Props.C21_roi_without_step_raises"
   ],
   "note": "rasterio affine product is the recorded contract"
  },
  {
   "property": "C22",
   "status": "partial",
   "theorems": [
    "Verif.Props.C22_false_without_roi",
    "Verif.Props.C22_repeated_saves_without_roi",
    "Verif.Props.C22_unchanged_partial"
   ],
   "note": "false of the code: the stored transform is overwritten when the configuration has no ROI, a second save moves the output. Negation and the exact drift proved; unchanged dataset proved for the other cases."
  },
  {
   "property": "C23",
   "status": "proved",
   "theorems": [
    "Verif.Props.C23_decode",
    "Verif.Props.C23_valid_iff_empty",
    "Verif.Props.C23_injective"
   ],
   "note": "any list of flags, any order, repetitions"
  },
  {
   "property": "C24",
   "status": "partial",
   "theorems": [
    "Verif.Props.C24_cells_exact_partial",
    "Verif.Props.C24_valid_iff_partial",
    "Verif.Props.C24_left_mask_with_step_raises",
    "Verif.Props.C24_after_matching_cost_partial"
   ],
   "note": "exact value of every cell for a step of one (integer disparities when the right image has a mask); with a left mask and a larger step IndexError is raised, with a right mask and a subpixel factor TypeError is raised; without masks and with a step the border and outside flags are wrong (C26, C27)"
  },
  {
   "property": "C25",
   "status": "proved",
   "theorems": [
    "Verif.Props.C25_displaced",
    "Verif.Props.C25_subpixel_raises"
   ],
   "note": "any mask, any integer disparities; float disparities raise TypeError"
  },
  {
   "property": "C26",
   "status": "partial",
   "theorems": [
    "Verif.Props.C26_false_with_step",
    "Verif.Props.C26_border_exact_partial"
   ],
   "note": "false of the code when the step is larger than one, proved for a step of one"
  },
  {
   "property": "C27",
   "status": "partial",
   "theorems": [
    "Verif.Props.maskOutside_spec",
    "Verif.Props.C27_false_with_step",
    "Verif.Props.C27_outside_exact_partial"
   ],
   "note": "false of the code when the step is larger than one, proved for a step of one and any subpixel factor; maskOutside_spec gives what the code does for any step"
  },
  {
   "property": "C28",
   "status": "proved",
   "theorems": [
    "Verif.Props.C28_check_iff",
    "Verif.Props.C28_run_iff"
   ],
   "note": "any sequence of any names, any behaviour of the steps; transitions library semantics is the recorded contract"
  },
  {
   "property": "C29",
   "status": "proved",
   "theorems": [
    "Verif.Props.C29_checked_pipeline_runs"
   ],
   "note": ""
  },
  {
   "property": "C30",
   "status": "partial",
   "theorems": [
    "Verif.Props.C30_check_rejects_suffix",
    "Verif.Props.C30_false_at_check",
    "Verif.Props.C30_run_partial"
   ],
   "note": "false at check: every dotted name is refused; true at run"
  },
  {
   "property": "C31",
   "status": "proved",
   "theorems": [
    "Verif.Props.C31_back_to_initial"
   ],
   "note": "any history of successful checks and runs"
  },
  {
   "property": "C32",
   "status": "partial",
   "theorems": [
    "Verif.Props.C32_false",
    "Verif.Props.C32_poisoned_forever",
    "Verif.Props.C32_refused_at_first_step_partial",
    "Verif.Props.C32_run_after_refusal"
   ],
   "note": "false of the code: after a pipeline refused at its second step or later the machine refuses every pipeline. Negation, permanence of the failure, and the true part (refusal at the first step) proved."
  },
  {
   "property": "C33",
   "status": "partial",
   "theorems": [
    "Verif.Props.C33_new_machine_partial",
    "Verif.Props.C33_stale_steps_are_kept",
    "Verif.Props.C33_false_on_reuse"
   ],
   "note": "false of a machine used twice: the steps of the first pipeline are added to the second; proved for a new machine"
  },
  {
   "property": "C34",
   "status": "partial",
   "theorems": [
    "Verif.Props.C34_false_at_size",
    "Verif.Props.C34_constant_partial",
    "Verif.Props.C34_grid_outlier"
   ],
   "note": "False as stated: a column interval starting exactly at the image width is accepted although no candidate exists (C34_false_at_size); a grid is checked by its largest absolute value only, so that one pixel far outside rejects a grid whose other pixels have candidates (C34_grid_outlier). Proved for constant disparities: accepted exactly when both intervals have candidates, except at the equality |init| - range = size."
  },
  {
   "property": "C35",
   "status": "partial",
   "theorems": [
    "Verif.Props.C35_pairs_partial",
    "Verif.Props.C35_mixed_raises",
    "Verif.Props.C35_false_with_estimation"
   ],
   "note": "Accepted configurations without estimation give the two disparities of the same kind; with estimation the check is skipped and anything passes."
  },
  {
   "property": "C36",
   "status": "proved",
   "theorems": [
    "Verif.Props.C36_accepted_iff",
    "Verif.Props.C36_no_roi"
   ],
   "note": "Exact characterisation of the accepted ROI sections, Booleans-as-integers being a parameter."
  },
  {
   "property": "C37",
   "status": "partial",
   "theorems": [
    "Verif.Props.C37_input_values_partial",
    "Verif.Props.C37_input_defaults",
    "Verif.Props.C37_false_empty_dictionary",
    "Verif.Props.C37_estimation_values",
    "Verif.Props.C37_disparity_values",
    "Verif.Props.C37_dichotomy_values",
    "Verif.Props.C37_matching_cost_values",
    "Verif.Props.C37_optical_flow_overwrites",
    "Verif.Props.C37_pipeline_sections"
   ],
   "note": "Every user value is kept except: an empty dictionary given where a default is not a dictionary, 'NaN'/'inf' strings converted, capped iterations, and the optical flow window size, which is overwritten."
  },
  {
   "property": "C38",
   "status": "proved",
   "theorems": [
    "Verif.Props.C38_disparity",
    "Verif.Props.C38_estimation",
    "Verif.Props.C38_refinement",
    "Verif.Props.C38_matching_cost",
    "Verif.Props.C38_input_section",
    "Verif.Props.C38_input_section_estimation",
    "Verif.Props.C38_roi_section"
   ],
   "note": "Section by section (C94 for whole configurations); the matching cost uses the contract PandoraStable for the Pandora part."
  },
  {
   "property": "C39",
   "status": "proved",
   "theorems": [
    "Verif.Props.C39_search_range",
    "Verif.Props.C39_shift_inside",
    "Verif.Props.estimation_range",
    "Verif.Props.C39_configuration",
    "Verif.Props.C39_nan_raises"
   ],
   "note": "The correlation (scikit-image) is a parameter: every pair of shifts."
  },
  {
   "property": "C40",
   "status": "proved",
   "theorems": [
    "Verif.Props.C40_displacement",
    "Verif.Props.C40_less_than_one_step",
    "Verif.Props.C40_unchanged"
   ],
   "note": "Every filter, cost volume, number of iterations and subpixel factor 2^k."
  },
  {
   "property": "C41",
   "status": "proved",
   "theorems": [
    "Verif.Props.C41_lattice"
   ],
   "note": ""
  },
  {
   "property": "C42",
   "status": "proved",
   "theorems": [
    "Verif.Props.C42_stays_in_range",
    "Verif.Props.C46_pipeline"
   ],
   "note": "C46_pipeline is the composition with the matching cost and disparity steps."
  },
  {
   "property": "C43",
   "status": "partial",
   "theorems": [
    "Verif.Props.C43_not_worse_partial",
    "Verif.Props.C43_false_ties",
    "Verif.Props.C43_false_invalid_in_range"
   ],
   "note": "False as stated: the score of the disparity step is replaced by the cost at the returned pair, which may be worse with ties, and becomes NaN when the invalid value is a disparity of the range. Proved with respect to the cost at the initial disparities, for all filters and iterations."
  },
  {
   "property": "C44",
   "status": "partial",
   "theorems": [
    "Verif.Props.C44_disparities_kept_partial",
    "Verif.Props.C44_score_kept_partial",
    "Verif.Props.C44_false_score"
   ],
   "note": "The disparities are kept; the score of an invalid pixel becomes NaN instead of the invalid value."
  },
  {
   "property": "C45",
   "status": "partial",
   "theorems": [
    "Verif.Props.search_selects",
    "Verif.Props.C45_no_move_partial",
    "Verif.Props.C45_flat_partial",
    "Verif.Props.C45_false_ties"
   ],
   "note": "False with ties which are not all equal: the first index is taken. Proved when the other candidates are NaN or strictly worse, and when all are equal; search_selects: the selected candidate is never improved by another."
  },
  {
   "property": "C46",
   "status": "proved",
   "theorems": [
    "Verif.Props.C46_windows_inside",
    "Verif.Props.C46_never_raises",
    "Verif.Props.C46_pipeline",
    "Verif.Props.C46_bicubic_fits",
    "Verif.Props.C46_sinc_fits",
    "Verif.Props.bicubic_has_coeffs",
    "Verif.Props.sinc_has_coeffs"
   ],
   "note": "Both filters; at most nine iterations for the cardinal sine (cap of the configuration)."
  },
  {
   "property": "C47",
   "status": "proved",
   "theorems": [
    "Verif.Props.C47_sum_one",
    "Verif.Props.C47_impulse",
    "Verif.Props.C47_mirror",
    "Verif.Props.C47_quadratic_1d",
    "Verif.Props.C47_exact_on_biquadratics"
   ],
   "note": "Exact arithmetic."
  },
  {
   "property": "C48",
   "status": "proved",
   "theorems": [
    "Verif.Props.C48_well_defined",
    "Verif.Props.C48_sum_one",
    "Verif.Props.C48_impulse",
    "Verif.Props.C48_row_of_table",
    "Verif.Props.C48_row_rounds_up",
    "Verif.Props.C48_constant"
   ],
   "note": "Over the real numbers, every half size."
  },
  {
   "property": "C49",
   "status": "partial",
   "theorems": [
    "Verif.Props.C49_integer_positions_partial",
    "Verif.Props.C49_one_value_per_position",
    "Verif.Props.C49_false_with_nan",
    "Verif.Props.bicubic_impulse",
    "Verif.Props.C49_sinc_impulse"
   ],
   "note": "False when another sample of the window is NaN; proved on finite windows for both filters."
  },
  {
   "property": "C50",
   "status": "proved",
   "theorems": [
    "Verif.Props.C50_aligned",
    "Verif.Props.C50_total",
    "Verif.Props.C50_small_raises"
   ],
   "note": "Every regular grid of coordinates, window, image, solver, resampling; the unknown content of np.empty_like is a parameter. When no window fits the refinement raises."
  },
  {
   "property": "C51",
   "status": "partial",
   "theorems": [
    "Verif.Props.C51_bounded",
    "Verif.Props.C51_bounded_partial",
    "Verif.Props.C51_trajectory"
   ],
   "note": "With a solver which gives no NaN (C51_bounded), or up to NaN without this hypothesis; a value out of the range is replaced by the invalid value."
  },
  {
   "property": "C52",
   "status": "partial",
   "theorems": [
    "Verif.Props.C52_inside_partial",
    "Verif.Props.C52_pipeline_partial",
    "Verif.Props.C52_one_map_only",
    "Verif.Props.C52_nan_kept",
    "Verif.Props.C52_other_range",
    "Verif.Props.C52_other_range_fails"
   ],
   "note": "False as stated: a pixel may be invalid in one map only, NaN of the solver are kept, and with a region of interest whose first coordinate is not the first pixel the range of another pixel is used. Proved one map at a time, up to NaN, when the first coordinate is the first pixel. In an execution of main the range of another pixel is never used: with variable grids and steps the run raises before (C96, subsampled_range)."
  },
  {
   "property": "C53",
   "status": "proved",
   "theorems": [
    "Verif.Props.C53_own_surface",
    "Verif.Props.C53_minimised",
    "Verif.Props.C53_total"
   ],
   "note": "C53_total under the contract InterpContract of interp2d (accepts matrices of the size of its axes), which exI_interp shows satisfiable."
  },
  {
   "property": "C54",
   "status": "partial",
   "theorems": [
    "Verif.Props.C54_partial",
    "Verif.Props.C54_no_cost_gives_nan",
    "Verif.Props.C54_false",
    "Verif.Props.C54_invalid_lost",
    "Verif.Props.C54_outside_range",
    "Verif.Props.C54_invalid_refined"
   ],
   "note": "False as stated (C54_false): NaN is written instead of the invalid value, the bounds of the minimisation include the margins of the refinement, and an invalid pixel with costs in the margins receives a disparity. Proved: NaN where there is no cost, otherwise a disparity between the first and the last ones of the volumes (contract BoundsContract of minimize, satisfiable by exI_bounds)."
  },
  {
   "property": "C55",
   "status": "partial",
   "theorems": [
    "Verif.Props.C55_mean",
    "Verif.Props.C55_std",
    "Verif.Props.C55_quantiles",
    "Verif.Props.C55_quantiles_ordered",
    "Verif.Props.C55_nothing_valid",
    "Verif.Props.C55_order",
    "Verif.Props.C55_ratio_range",
    "Verif.Props.C55_ratio_partial",
    "Verif.Props.C55_nan_counted"
   ],
   "note": "Mean, deviation, quantiles and independence of the order are proved for every map; the ratio is right only when the map has no NaN or the invalid value is NaN (C55_nan_counted shows the failure). Infinite cells are excluded from the value theorems."
  },
  {
   "property": "C56",
   "status": "proved",
   "theorems": [
    "Verif.Props.C56_result",
    "Verif.Props.C56_once",
    "Verif.Props.C56_no_deadlock",
    "Verif.Props.C56_lines",
    "Verif.Props.C56_count",
    "Verif.Props.C56_maxima",
    "Verif.Props.C56_exception_leaves_thread",
    "Verif.Props.C56_late_values",
    "Verif.Props.C56_values_false"
   ],
   "note": "Any schedule of the two threads. Observed besides the claim: when the ready message comes after the time-out, the line holds 0 as memory and the memory as CPU (C56_values_false)."
  },
  {
   "property": "C57",
   "status": "proved",
   "theorems": [
    "Verif.Props.C57_translation",
    "Verif.Props.sad_dissimilarity",
    "Verif.Props.ssd_dissimilarity",
    "Verif.Props.C57_example",
    "Verif.Props.C57_translation_similarity",
    "Verif.Props.zncc_similarity",
    "Verif.Props.C57_example_zncc"
   ],
   "note": "Measures zero on equal windows and never negative (sad and ssd are), or one on equal windows which are not constant and never above one (zncc is, with an exact square root)."
  },
  {
   "property": "C58",
   "status": "partial",
   "theorems": [
    "Verif.Props.C58_valid_iff_cost_partial",
    "Verif.Props.C58_false"
   ],
   "note": "Proved when the right mask is the one the criteria use; false in general: the mask of the right image is lost by the row shift (C58_false)."
  },
  {
   "property": "C59",
   "status": "partial",
   "theorems": [
    "Verif.Props.C59_false",
    "Verif.Props.C59_placeholder_partial"
   ],
   "note": "False: the margins come from the disparities of the input section, not from the estimated ones. Proved for the placeholder disparities and displacements below 9994 pixels."
  },
  {
   "property": "C60",
   "status": "partial",
   "theorems": [
    "Verif.Props.C60_saved_partial",
    "Verif.Props.C60_saved_false",
    "Verif.Props.C60_false",
    "Verif.Props.C60_never_accepted_again",
    "Verif.Props.C60_roi_margins"
   ],
   "note": "Proved: without ROI and estimation the configuration saved by an execution is accepted by the checks, and only then. False of the code for every configuration with an estimation or a ROI. Same contract PandoraKeeps as C94."
  },
  {
   "property": "C61",
   "status": "partial",
   "theorems": [
    "Verif.Props.C61_flow_partial",
    "Verif.Props.C61_flow_raises_with_roi",
    "Verif.Props.C61_other_shape_raises",
    "Verif.Props.C61_dichotomy_raises_with_step",
    "Verif.Props.C61_step_one_partial"
   ],
   "note": "False of the code: the dichotomy always raises when the step skips rows or columns; the positive part for a step of one is C46_pipeline. The optical flow works for every step when the first coordinate is the first pixel (always without ROI); with a ROI it raises when the number of points changes."
  },
  {
   "property": "C62",
   "status": "proved",
   "theorems": [
    "Verif.Props.C62_score_at_refined_disparities"
   ],
   "note": ""
  },
  {
   "property": "C63",
   "status": "partial",
   "theorems": [
    "Verif.Props.C63_exact_match_partial",
    "Verif.Props.C63_subpixel_biased"
   ],
   "note": "Proved for integer disparities; false for subpixel disparities: the window is taken at the integer part but the motion is subtracted from the whole disparity."
  },
  {
   "property": "C64",
   "status": "partial",
   "theorems": [
    "Verif.Props.C64_invalid_kept_partial",
    "Verif.Props.C64_invalid_refined"
   ],
   "note": "Proved for NaN and for invalid values farther from the range than the number of iterations; false when the invalid value is inside the range."
  },
  {
   "property": "C65",
   "status": "proved",
   "theorems": [
    "Verif.Props.C65_identical",
    "Verif.Props.C65_plane",
    "Verif.Props.exLstsq_contract"
   ],
   "note": "Under the contract LeastSquares of np.linalg.lstsq, which exLstsq_contract shows satisfiable."
  },
  {
   "property": "C66",
   "status": "partial",
   "theorems": [
    "Verif.Props.C66_margins_partial",
    "Verif.Props.C66_swapped"
   ],
   "note": "False of the code: the row and column steps are exchanged. The margins are right exactly when the two steps are equal."
  },
  {
   "property": "C67",
   "status": "partial",
   "theorems": [
    "Verif.Props.C67_score_at_sample_partial",
    "Verif.Props.C67_sign_lost"
   ],
   "note": "False of the code for negative similarities: the absolute value is returned. Proved: at a sample the score is the absolute value of the cost."
  },
  {
   "property": "C68",
   "status": "proved",
   "theorems": [
    "Verif.Props.C68_filled",
    "Verif.Props.C68_solver"
   ],
   "note": "C68_solver starts from the cost volumes: the solver receives numbers only."
  },
  {
   "property": "C69",
   "status": "proved",
   "theorems": [
    "Verif.Props.C69_reported_ratio"
   ],
   "note": ""
  },
  {
   "property": "C70",
   "status": "proved",
   "theorems": [
    "Verif.Props.C70_run_composes"
   ],
   "note": "Correlation, zoom, matching cost and optical flow solver are parameters."
  },
  {
   "property": "C71",
   "status": "partial",
   "theorems": [
    "Verif.Props.C71_history_independent_partial",
    "Verif.Props.C71_stale_maps_false"
   ],
   "note": "Proved for every pipeline with a disparity step. False without one: an accepted pipeline which stops after the matching cost returns the maps of the previous run (C71_stale_maps_false)."
  },
  {
   "property": "C72",
   "status": "proved",
   "theorems": [
    "Verif.Props.C72_run_near_estimation",
    "Verif.Props.C72_run_refined_near_estimation"
   ],
   "note": "With a dichotomy: step one, subpix a power of two, margins of the filter, one refinement."
  },
  {
   "property": "C73",
   "status": "partial",
   "theorems": [
    "Verif.Props.C73_accepted_steps_partial",
    "Verif.Props.C73_wrong_steps_raise",
    "Verif.Props.C73_float_row_step_false"
   ],
   "note": "Anything but a list of two numbers at least one is rejected. The row step may be a float, True or infinity (C73_float_row_step_false); the column step is checked by Pandora (contract)."
  },
  {
   "property": "C74",
   "status": "proved",
   "theorems": [
    "Verif.Props.C74_accepted_disparities"
   ],
   "note": "Without estimation; with one the disparities are replaced."
  },
  {
   "property": "C75",
   "status": "partial",
   "theorems": [
    "Verif.Props.C75_pair_ok",
    "Verif.Props.C75_created_partial",
    "Verif.Props.C75_one_row_false"
   ],
   "note": "Created for images of at least two rows and columns. False for one row or one column with grids (np.squeeze, C75_one_row_false)."
  },
  {
   "property": "C76",
   "status": "proved",
   "theorems": [
    "Verif.Props.C76_columns_sampled",
    "Verif.Props.C76_transpose"
   ],
   "note": "scipy zoom with order 1 is a contract (zoomLinearCol)."
  },
  {
   "property": "C77",
   "status": "proved",
   "theorems": [
    "Verif.Props.C77_what_is_written"
   ],
   "note": "Failures of the disk when writing are not modelled."
  },
  {
   "property": "C78",
   "status": "proved",
   "theorems": [
    "Verif.Props.C78_files_answer_user"
   ],
   "note": "Under DiskContract (sizes of what is read) and PandoraContract (subpix positive, costs finite or NaN)."
  },
  {
   "property": "C79",
   "status": "proved",
   "theorems": [
    "Verif.Props.C79_saved_configuration"
   ],
   "note": "Same contracts as C78; the correlation is a parameter."
  },
  {
   "property": "C80",
   "status": "partial",
   "theorems": [
    "Verif.Props.C80_report_describes_files_partial",
    "Verif.Props.C80_false_with_roi"
   ],
   "note": "Proved without ROI, for the mean, deviation and quantiles. With a ROI it is false: the report is computed with the margins (C80_false_with_roi)."
  },
  {
   "property": "C81",
   "status": "partial",
   "theorems": [
    "Verif.Props.C81_accepted_runs_partial",
    "Verif.Props.C81_dichotomy_step_false",
    "Verif.Props.C81_grid_step_false",
    "Verif.Props.C81_without_disparity",
    "Verif.Props.C81_estimation_null_false",
    "Verif.Props.C81_estimation_mixed_false",
    "Verif.Props.C81_flow_small_false",
    "Verif.Props.C81_flow_roi_false",
    "Verif.Props.C81_cardinal_sine_meets"
   ],
   "note": "Under RunContract (accepted images can be read, check_dataset accepts them, Pandora keeps its own choices). False for the dichotomy with steps other than one, for grids of disparities with steps other than one, for an estimation with a ROI and initial disparities which are null or of two kinds, for the optical flow when no window fits or with a ROI and steps other than one. C81_without_disparity: the pipelines which stop before the disparity. Missing: steps which are not integers."
  },
  {
   "property": "C82",
   "status": "proved",
   "theorems": [
    "Verif.Props.C82_refined_files",
    "Verif.Props.C82_refined_saved"
   ],
   "note": "Under DiskContract, PandoraContract and PandoraKeeps. Nothing is assumed of the filters. The score raster is left to C43, C44 and C62."
  },
  {
   "property": "C83",
   "status": "proved",
   "theorems": [
    "Verif.Props.C83_calls",
    "Verif.Props.C83_times"
   ],
   "note": "pandas is modelled by its documented behaviour."
  },
  {
   "property": "C84",
   "status": "partial",
   "theorems": [
    "Verif.Props.C84_false",
    "Verif.Props.C84_box",
    "Verif.Props.C84_one_call_partial"
   ],
   "note": "False of the code: the box is drawn from the two numbers mean and sum (C84_box gives the values shown); true for a function called once."
  },
  {
   "property": "C85",
   "status": "partial",
   "theorems": [
    "Verif.Props.C85_false",
    "Verif.Props.C85_empty_section",
    "Verif.Props.C85_no_failure_partial"
   ],
   "note": "False of the code: the file is named at the import and is only removed by a summary, so the lines of an execution which failed, or whose expert_mode section is empty, are counted in the next summary. Proved when there is no such earlier execution."
  },
  {
   "property": "C86",
   "status": "proved",
   "theorems": [
    "Verif.Props.C86_accepted_iff",
    "Verif.Props.C86_input",
    "Verif.Props.C86_pipeline",
    "Verif.Props.disparity_iff",
    "Verif.Props.estimation_iff",
    "Verif.Props.matching_cost_iff",
    "Verif.Props.refinement_iff"
   ],
   "note": "Under the contract GivesLeaves: what Pandora gives for the window, the subpixel factor and the spline order are not dictionaries. The machine is new. The images are opened by rasterio and checked by Pandora: parameters of the environment."
  },
  {
   "property": "C87",
   "status": "proved",
   "theorems": [
    "Verif.Props.C87_best_pair",
    "Verif.Props.C87_best_pair_saved",
    "Verif.Props.volume_winner"
   ],
   "note": "Under DiskContract, PandoraContract, PandoraKeeps and the linear zoom of the model. The costs of Pandora are a parameter: the theorem says which of them are compared."
  },
  {
   "property": "C88",
   "status": "proved",
   "theorems": [
    "Verif.Props.C88_translation_found",
    "Verif.Props.sad_onlyEqual",
    "Verif.Props.ssd_onlyEqual",
    "Verif.Props.window_null"
   ],
   "note": "Same contracts as C87, the cost being the idealised window cost of the model with a kernel which is null exactly on equal windows (sad and ssd are proved to be such kernels)."
  },
  {
   "property": "C89",
   "status": "proved",
   "theorems": [
    "Verif.Props.C89_steps_only_choose",
    "Verif.Props.BestPair.unique",
    "Verif.Props.recorded_margins",
    "Verif.Props.Stages.same_images"
   ],
   "note": "Under DiskContract, PandoraContract and PandoraKeeps; the two matching cost sections give the same subpixel factor, measure, cost and margins (SameMatching)."
  },
  {
   "property": "C90",
   "status": "partial",
   "theorems": [
    "Verif.Props.C90_same_inside_partial",
    "Verif.Props.C90_never_better",
    "Verif.Props.C90_roi_restricts",
    "Verif.Props.C90_false"
   ],
   "note": "False of the code: get_roi_processing takes the largest of the disparities and of the half window as margins, not their sum, so that a displaced window may leave the crop (C90_false: the execution on the region is invalid where the full execution finds a translation with score 0). Proved: same values at the pixels whose window is inside the region, with windows of one pixel everywhere; never a better score elsewhere; exact description of the pairs compared. Same contracts as C87, window costs, and CropsWhole: the pixels read in a region are those of the whole image. No-data value of the right image which is not NaN."
  },
  {
   "property": "C91",
   "status": "proved",
   "theorems": [
    "Verif.Props.C91_exact_disparities",
    "Verif.Props.C91_exact_refined",
    "Verif.Props.C91_bound_tight",
    "Verif.Props.dyadic_float32"
   ],
   "note": "Same contracts as C87 and C82. C91_bound_tight: 32768 + 1/512 is not a float32."
  },
  {
   "property": "C92",
   "status": "proved",
   "theorems": [
    "Verif.Props.C92_wider_never_worse",
    "Verif.Props.Stages.same_side",
    "Verif.Props.cost_wider"
   ],
   "note": "Same contracts as C87, window costs of the model. Without ROI, since the crop depends on the intervals (C90)."
  },
  {
   "property": "C93",
   "status": "proved",
   "theorems": [
    "Verif.Props.C93_refined_against_not",
    "Verif.Props.C93_moved_from_best",
    "Verif.Props.best_congr",
    "Verif.Props.Stages.refinedWinner",
    "Verif.Props.same_images"
   ],
   "note": "Same contracts as C87 and C82. C93_moved_from_best holds for every cost and ROI, on one execution; C93_refined_against_not compares two executions with the window costs of the model. Without the uniqueness of the pair, the score may be worse (C43)."
  },
  {
   "property": "C94",
   "status": "proved",
   "theorems": [
    "Verif.Props.C94_checked_again",
    "Verif.Props.C94_same_execution",
    "Verif.Props.C38_input_section_estimation"
   ],
   "note": "Same contract PandoraKeeps as C81. The configuration is the one returned by check_conf; the one saved after the run has other keys and is refused (C60)."
  },
  {
   "property": "C95",
   "status": "proved",
   "theorems": [
    "Verif.Props.C95_saved_again_iff",
    "Verif.Props.C95_saved_again",
    "Verif.Props.C95_saved_refused"
   ],
   "note": "Same contract PandoraKeeps as C94; the saved file is read back as the dictionary which was saved (C149), a dictionary without duplicate keys."
  },
  {
   "property": "C96",
   "status": "proved",
   "theorems": [
    "Verif.Props.C96_flow_files",
    "Verif.Props.subsampled_range"
   ],
   "note": "Contracts DiskContract, PandoraContract, PandoraKeeps, offset of the configured window equal to (window-1)/2, linear zoom (order 1). The solver and the resampling are arbitrary parameters."
  },
  {
   "property": "C97",
   "status": "proved",
   "theorems": [
    "Verif.Props.C97_interpolated_files",
    "Verif.Props.cells_all"
   ],
   "note": "Contracts DiskContract, PandoraContract, PandoraKeeps, BoundsContract (scipy minimize stays in its bounds), linear zoom (order 1). The costs read for a pixel are those of its own interval and those of the margins, outside the intervals of all the pixels; the result may leave the interval of the pixel (C54)."
  },
  {
   "property": "C98",
   "status": "proved",
   "theorems": [
    "Verif.Props.C98_flow_against_not"
   ],
   "note": "Same full images, window cost (a cost which reads the windows and the displacement only), contracts of C96. With a ROI see C96, which compares with the best pair of the pixel."
  },
  {
   "property": "C99",
   "status": "proved",
   "theorems": [
    "Verif.Props.C99_runs_exactly"
   ],
   "note": "Under RunContract (as C81), with finite shifts when there is an estimation, integer steps. C81 gives the sufficient conditions with a ROI."
  }
 ]
}