{
 "claims": [
  {
   "property": "C01",
   "status": "proved",
   "theorems": [
    "Gridpp.Props.c01_only_valid_multiset",
    "Gridpp.Props.c01_missing_iff"
   ],
   "note": "all eight statistics, any array"
  },
  {
   "property": "C02",
   "status": "proved",
   "theorems": [
    "Gridpp.Props.c02_mean_sum_count_min_max"
   ],
   "note": ""
  },
  {
   "property": "C03",
   "status": "proved",
   "theorems": [
    "Gridpp.Props.c03_variance"
   ],
   "note": "exact arithmetic; square root assumed lawful (instance for the reals)"
  },
  {
   "property": "C04",
   "status": "proved",
   "theorems": [
    "Gridpp.Props.c04_throws_iff",
    "Gridpp.Props.c04_missing",
    "Gridpp.Props.c04_value",
    "Gridpp.Props.c04_mono"
   ],
   "note": ""
  },
  {
   "property": "C05",
   "status": "proved",
   "theorems": [
    "Gridpp.Props.c05_even_quantiles",
    "Gridpp.Props.c05_small_num"
   ],
   "note": ""
  },
  {
   "property": "C06",
   "status": "partial",
   "theorems": [
    "Gridpp.Props.c06_no_duplicates_partial",
    "Gridpp.Props.c06_duplicates_counterexample"
   ],
   "note": "claim is false in general (counter-example proved); holds when num <= number of distinct values or num >= size"
  },
  {
   "property": "C07",
   "status": "proved",
   "theorems": [
    "Gridpp.Props.c07_interpolate",
    "Gridpp.Props.c07_mono"
   ],
   "note": "monotonicity also with repeated abscissas"
  },
  {
   "property": "C08",
   "status": "proved",
   "theorems": [
    "Gridpp.Props.c08_contract",
    "Gridpp.Props.c08_vec_contract"
   ],
   "note": ""
  },
  {
   "property": "C09",
   "status": "proved",
   "theorems": [
    "Gridpp.Props.c09_ties"
   ],
   "note": ""
  },
  {
   "property": "C10",
   "status": "proved",
   "theorems": [
    "Gridpp.Props.c10_parallelogram",
    "Gridpp.Props.c10_halfplanes"
   ],
   "note": ""
  },
  {
   "property": "C11",
   "status": "proved",
   "theorems": [
    "Gridpp.Props.c11_points",
    "Gridpp.Props.c11_grid",
    "Gridpp.Props.c11_grid_empty",
    "Gridpp.Props.c11_kdtree_empty_reads_outside"
   ],
   "note": "Relative to the r-tree contract RTree.Lawful (met by RTree.scan, theorem RTree.scan_lawful). Extra: KDTree::get_nearest_neighbour itself reads outside on an empty tree."
  },
  {
   "property": "C12",
   "status": "partial",
   "theorems": [
    "Gridpp.Props.convert_spec",
    "Gridpp.Props.c12_neighbours_partial",
    "Gridpp.Props.c12_strict_partial",
    "Gridpp.Props.c12_boundary_counterexample"
   ],
   "note": "False at the boundary: the strict box test loses points at distance exactly radius along a coordinate axis (witness). Exact extent and everything strictly inside proved."
  },
  {
   "property": "C13",
   "status": "proved",
   "theorems": [
    "Gridpp.Props.c13_agree"
   ],
   "note": "KDTree and (via c15_queries) Grid."
  },
  {
   "property": "C14",
   "status": "proved",
   "theorems": [
    "Gridpp.Props.c14_closest"
   ],
   "note": "num > 0; num <= 0 is outside the contract of boost's nearest query."
  },
  {
   "property": "C15",
   "status": "proved",
   "theorems": [
    "Gridpp.Props.c15_grid",
    "Gridpp.Props.c15_bijection",
    "Gridpp.Props.c15_flatten",
    "Gridpp.Props.c15_get_point",
    "Gridpp.Props.c15_queries"
   ],
   "note": "Grids with at least one row and column; c11_grid_empty gives size (0,0) for the empty grid."
  },
  {
   "property": "C16",
   "status": "proved",
   "theorems": [
    "Gridpp.Props.c16_box",
    "Gridpp.Props.c16_invalid",
    "Gridpp.Props.c11_grid_empty"
   ],
   "note": "Containment = same side of the four edges (C10). Cartesian grids: |y| <= 90.001, see C17."
  },
  {
   "property": "C17",
   "status": "partial",
   "theorems": [
    "Gridpp.Props.c17_cartesian_counterexample",
    "Gridpp.Props.c17_cartesian_partial"
   ],
   "note": "False: get_box builds Geodetic Points, so it throws for |y| > 90.001 on Cartesian grids (witness)."
  },
  {
   "property": "C18",
   "status": "partial",
   "theorems": [
    "Gridpp.Props.c18_copy_partial",
    "Gridpp.Props.c18_cartesian_counterexample"
   ],
   "note": "False for Cartesian: the copy constructor uses the type of the new, empty tree (witness)."
  },
  {
   "property": "C19",
   "status": "partial",
   "theorems": [
    "Gridpp.Props.c19_subset_partial",
    "Gridpp.Props.c19_subset_throws",
    "Gridpp.Props.c19_in_domain_partial",
    "Gridpp.Props.c19_cartesian_counterexample"
   ],
   "note": "False for Cartesian objects: type lost or exception (witness). Geodetic proved; throwing for bad indices proved for both."
  },
  {
   "property": "C20",
   "status": "partial",
   "theorems": [
    "Gridpp.Props.c20_grid_grid",
    "Gridpp.Props.c20_grid_grid_time",
    "Gridpp.Props.c20_points_grid",
    "Gridpp.Props.c20_points_grid_time",
    "Gridpp.Props.c20_grid_points",
    "Gridpp.Props.c20_grid_points_time",
    "Gridpp.Props.c20_points_points",
    "Gridpp.Props.c20_points_points_time",
    "Gridpp.Props.c20_throws_partial",
    "Gridpp.Props.c20_empty",
    "Gridpp.Props.c20_takes_self",
    "Gridpp.Props.c20_identity",
    "Gridpp.Props.c20_identity_points",
    "Gridpp.Props.c20_empty_values_counterexample",
    "Gridpp.Props.c20_empty_output_reads_outside"
   ],
   "note": "All eight overloads proved for output locations valid in the input's coordinate type. False in one case: empty values pass the size check of a non-empty grid and are then read (witness)."
  },
  {
   "property": "C21",
   "status": "proved",
   "theorems": [
    "Gridpp.Props.c21_sum_mean_count",
    "Gridpp.Props.square_spec"
   ],
   "note": "Exact arithmetic; rectangular non-empty fields, any half width >= 0."
  },
  {
   "property": "C22",
   "status": "proved",
   "theorems": [
    "Gridpp.Props.c22_min_max",
    "Gridpp.Props.square_spec"
   ],
   "note": ""
  },
  {
   "property": "C23",
   "status": "proved",
   "theorems": [
    "Gridpp.Props.c23_variance_std",
    "Gridpp.Props.square_spec"
   ],
   "note": "Exact arithmetic: rounding in mean2 - mean*mean is not modelled."
  },
  {
   "property": "C24",
   "status": "proved",
   "theorems": [
    "Gridpp.Props.c24_contract",
    "Gridpp.Props.c24_zero"
   ],
   "note": ""
  },
  {
   "property": "C25",
   "status": "partial",
   "theorems": [
    "Gridpp.Props.c25_not_pooled",
    "Gridpp.Props.c25_pooled_partial"
   ],
   "note": "Claim is false: witness c25_not_pooled (Mean with a missing member, Count, Variance, read out of range on empty input). Partial: Min, Max, Sum always, Mean when every cell has equally many valid members."
  },
  {
   "property": "C26",
   "status": "partial",
   "theorems": [
    "Gridpp.Props.c26_fixed_level_partial",
    "Gridpp.Props.c26_bounds_any_schedule",
    "Gridpp.Props.c26_schedule_dependent"
   ],
   "note": "False for levels that differ between cells: curr_quantile is shared between threads (c26_schedule_dependent is a concrete interleaving). Proved: one fixed level is schedule independent; the threshold bounds hold for every interleaving."
  },
  {
   "property": "C27",
   "status": "proved",
   "theorems": [
    "Gridpp.Props.c27_fast_quantile",
    "Gridpp.Props.c27_fast_quantile_ensemble",
    "Gridpp.Props.c27_ensemble_not_pooled",
    "Gridpp.Props.c27_thresholds"
   ],
   "note": "2D version: exactly the fraction of valid values in the clipped window. Ensemble version averages per-cell fractions; equals the pooled fraction when cells have equally many valid members (counter-example otherwise)."
  },
  {
   "property": "C28",
   "status": "proved",
   "theorems": [
    "Gridpp.Props.c28_quantile",
    "Gridpp.Props.c28_invalid_level"
   ],
   "note": "An invalid level terminates the process (exception inside the OpenMP region)."
  },
  {
   "property": "C29",
   "status": "partial",
   "theorems": [
    "Gridpp.Props.c29_window_partial",
    "Gridpp.Props.c29_inner_partial",
    "Gridpp.Props.c29_mean_reads_outside",
    "Gridpp.Props.c29_count_reads_outside",
    "Gridpp.Props.c29_contract",
    "Gridpp.Props.mem_windowAt"
   ],
   "note": "False for Mean, Count and Sum with keep_missing: counts[start-1] is read with start = 0 (window.cpp:83,88,92). Proved for Min/Median/Max/Std/Variance with every flag, for Sum without keep_missing, and for Mean/Sum where the window does not start at the first element."
  },
  {
   "property": "C30",
   "status": "proved",
   "theorems": [
    "Gridpp.Props.c30_window_sum"
   ],
   "note": "Every rectangular array, odd length or before=true, with and without missing_edges."
  },
  {
   "property": "C31",
   "status": "proved",
   "theorems": [
    "Gridpp.Props.continuesWith_existsUnique",
    "Gridpp.Props.c31_inside",
    "Gridpp.Props.c31_below",
    "Gridpp.Props.c31_above",
    "Gridpp.Props.c31_unchanged",
    "Gridpp.Props.c31_throws",
    "Gridpp.Props.c31_other_policy",
    "Gridpp.Props.c31_vec",
    "Gridpp.Props.c31_repeated_end"
   ],
   "note": "polyline inside, policy slope outside incl. the end points (continuity), throws; finite strictly increasing curves"
  },
  {
   "property": "C32",
   "status": "proved",
   "theorems": [
    "Gridpp.Props.continuesWith_nonneg",
    "Gridpp.Props.c32_monotone",
    "Gridpp.Props.c32_unchanged_breaks_order"
   ],
   "note": "sum of interpolation and two monotone ramps"
  },
  {
   "property": "C33",
   "status": "proved",
   "theorems": [
    "Gridpp.Props.mem_finitePairs",
    "Gridpp.Props.c33_separated_subsequence",
    "Gridpp.Props.c33_identity",
    "Gridpp.Props.c33_idempotent",
    "Gridpp.Props.c33_can_be_empty"
   ],
   "note": "loop invariant over the index stack"
  },
  {
   "property": "C34",
   "status": "partial",
   "theorems": [
    "Gridpp.Props.c34_all_missing_reads_outside",
    "Gridpp.Props.c34_defined_partial"
   ],
   "note": "false for all-missing curves (line 167); exact extent proved"
  },
  {
   "property": "C35",
   "status": "partial",
   "theorems": [
    "Gridpp.Props.c35_sorted",
    "Gridpp.Props.quantileMappingCurve_reads",
    "Gridpp.Props.c35_quantiles_partial",
    "Gridpp.Props.c35_unsorted_counterexample",
    "Gridpp.Props.c35_contract"
   ],
   "note": "without quantiles proved; with quantiles false for unsorted arrays because the unsorted arrays are indexed"
  },
  {
   "property": "C36",
   "status": "proved",
   "theorems": [
    "Gridpp.Props.c36_fill_missing",
    "Gridpp.Props.c36_between"
   ],
   "note": "fill_missing: every missing cell with valid cells on both sides in its row or column gets the mean of the linear interpolations, valid cells are kept, other cells stay missing; values lie between the bracketing values."
  },
  {
   "property": "C37",
   "status": "partial",
   "theorems": [
    "Gridpp.Props.c37_counterexample",
    "Gridpp.Props.c37_partial"
   ],
   "note": "False as stated: cells outside the bracketed runs stay missing (c37_counterexample). c37_partial: nothing is left missing when every missing cell has a bracket."
  },
  {
   "property": "C38",
   "status": "proved",
   "theorems": [
    "Gridpp.Props.c38_fill",
    "Gridpp.Props.c38_throws"
   ],
   "note": "fill: cells inside (outside) the union of the circles get the value, the others are unchanged; errors. An empty field passes the size check and is written outside (c38_empty_input_writes_outside)."
  },
  {
   "property": "C39",
   "status": "proved",
   "theorems": [
    "Gridpp.Props.c39_circle",
    "Gridpp.Props.c39_square",
    "Gridpp.Props.c39_throws",
    "Gridpp.Props.elevNear_spec"
   ],
   "note": "doping_circle and doping_square: last covering observation wins; uncovered cells keep the background; errors."
  },
  {
   "property": "C40",
   "status": "proved",
   "theorems": [
    "Gridpp.Props.c40_grid",
    "Gridpp.Props.c40_points",
    "Gridpp.Props.c40_throws"
   ],
   "note": "Within radius in the sense of the radius query (C12). Order independence is part of the statement; schedule independence is C66."
  },
  {
   "property": "C41",
   "status": "proved",
   "theorems": [
    "Gridpp.Props.c41_grid",
    "Gridpp.Props.c41_points",
    "Gridpp.Props.c41_counts",
    "Gridpp.Props.c41_throws"
   ],
   "note": "Cells without any point are missing, also with min_num = 0 and Count; they count as 0 in the sum. Empty output grid/points: out-of-range access (c41_empty_output_reads_outside)."
  },
  {
   "property": "C42",
   "status": "proved",
   "theorems": [
    "Gridpp.Props.c42_count",
    "Gridpp.Props.c42_distance"
   ],
   "note": "All eight overloads; num > 0."
  },
  {
   "property": "C43",
   "status": "partial",
   "theorems": [
    "Gridpp.Props.c43_convex",
    "Gridpp.Props.c43_between",
    "Gridpp.Props.c43_location",
    "Gridpp.Props.c43_grid",
    "Gridpp.Props.c43_points",
    "Gridpp.Props.c43_times",
    "Gridpp.Props.c43_parallelogram",
    "Gridpp.Props.c43_general",
    "Gridpp.Props.c43_general_negative_partial",
    "Gridpp.Props.c43_corners_affine",
    "Gridpp.Props.c43_corner_counterexample"
   ],
   "note": "Every returned value is a convex combination (or nearest value); exact on parallelograms and, for positive orientation, on all cells that are clearly no parallelogram. Corner claim false for small distorted cells (witness)."
  },
  {
   "property": "C44",
   "status": "partial",
   "theorems": [
    "Gridpp.Props.c44_grid_partial",
    "Gridpp.Props.c44_points_partial",
    "Gridpp.Props.c43_times",
    "Gridpp.Props.c44_outside",
    "Gridpp.Props.c44_missing",
    "Gridpp.Props.c44_size",
    "Gridpp.Props.c44_empty_values_counterexample",
    "Gridpp.Props.c44_cartesian_counterexample"
   ],
   "note": "Equal to nearest() wherever no cell at the nearest point contains the location with four valid corners. False for Cartesian grids with |y| > 90.001 (aborts; witness)."
  },
  {
   "property": "C45",
   "status": "proved",
   "theorems": [
    "Gridpp.Props.c45_plain",
    "Gridpp.Props.c45_grid",
    "Gridpp.Props.c45_points",
    "Gridpp.Props.c45_grid_times",
    "Gridpp.Props.c45_points_times",
    "Gridpp.Props.c45_missing_elevation"
   ],
   "note": "All four overloads, both downscalers. For several times the output locations must be valid and, for Cartesian coordinates, latitudes acceptable to the box search; there must be at least one time. Where an elevation is missing the value is missing (c45_missing_elevation), as the statement allows."
  },
  {
   "property": "C46",
   "status": "partial",
   "theorems": [
    "Gridpp.Props.c46_grid",
    "Gridpp.Props.c46_points",
    "Gridpp.Props.c46_grid_times",
    "Gridpp.Props.c46_points_times",
    "Gridpp.Props.c46_plain",
    "Gridpp.Props.c46_zero_grid",
    "Gridpp.Props.c46_nearest_total",
    "Gridpp.Props.c46_size",
    "Gridpp.Props.c46_debug_partial",
    "Gridpp.Props.c46_debug_reads_outside",
    "Gridpp.Props.c46_debug_counterexample",
    "Gridpp.Props.c46_times_counterexample"
   ],
   "note": "full_gradient is characterised completely for fields of the right size. The last sentence of the claim is false: full_gradient_debug reads outside an empty field unless both gradients are given, and the overload for points and several times reads outside the gradients if they have fewer times than the values."
  },
  {
   "property": "C47",
   "status": "proved",
   "theorems": [
    "Gridpp.Props.c47_no_observations",
    "Gridpp.Props.c47_sizes",
    "Gridpp.Props.c47_unaffected"
   ],
   "note": "No observations: the background and its variance are returned. Inconsistent sizes throw invalid_argument, except that the number of background values at the observations is not checked for points (see C50). A point with no usable observation keeps its background and variance."
  },
  {
   "property": "C48",
   "status": "proved",
   "theorems": [
    "Gridpp.Props.c48_analysis"
   ],
   "note": "For every lawful matrix inverse: the analysis increment and the variance solve the optimal interpolation equations for a selection of observations that is complete or the best max_points."
  },
  {
   "property": "C49",
   "status": "partial",
   "theorems": [
    "Gridpp.Props.c49_limited_partial",
    "Gridpp.Props.c49_analysis_partial",
    "Gridpp.Props.c49_counterexample"
   ],
   "note": "The limit of the increment is only applied when the increment lies outside the range extended to 0 in the way the code tests it (gap at 0). c49_counterexample: innovations 0 and -1 give an increment above 0 although extrapolation is off."
  },
  {
   "property": "C50",
   "status": "partial",
   "theorems": [
    "Gridpp.Props.c50_grid",
    "Gridpp.Props.c50_grid_full_partial",
    "Gridpp.Props.c50_sizes",
    "Gridpp.Props.c50_empty_reads_outside",
    "Gridpp.Props.c50_no_observations_reads_outside",
    "Gridpp.Props.c50_variance_reads_outside",
    "Gridpp.Props.c50_points_reads_outside"
   ],
   "note": "The gridded version is the point version reshaped. Reads outside the arrays for an empty grid, for missing background values at the observations, and for an unchecked variance size are shown by concrete cases."
  },
  {
   "property": "C51",
   "status": "partial",
   "theorems": [
    "Gridpp.Props.c48_analysis",
    "Gridpp.Props.c51_outcome",
    "Gridpp.Props.c51_one",
    "Gridpp.Props.c51_simple",
    "Gridpp.Props.c51_correlations",
    "Gridpp.Props.c51_variance_partial",
    "Gridpp.Props.c51_variance_counterexample"
   ],
   "note": "The variance does not exceed the background variance and is non-negative when the extended correlation matrix is positive semidefinite; c51_variance_counterexample: a Cressman function gives a negative analysis variance."
  },
  {
   "property": "C52",
   "status": "partial",
   "theorems": [
    "Gridpp.Props.c52_ensi",
    "Gridpp.Props.c52_ensi_grid",
    "Gridpp.Props.c52_ebesc",
    "Gridpp.Props.c52_ebesc_gap",
    "Gridpp.Props.c52_ebesc_grid",
    "Gridpp.Props.c52_ebesc_grid_gap",
    "Gridpp.Props.c52_ebe_partial",
    "Gridpp.Props.c52_ebe_gap",
    "Gridpp.Props.c52_ebe_out_of_range",
    "Gridpp.Props.c52_ebe_grid_partial",
    "Gridpp.Props.c52_ebe_grid_out_of_range",
    "Gridpp.Props.c52_utem_partial",
    "Gridpp.Props.c52_utem_out_of_range",
    "Gridpp.Props.c52_utem_grid_partial",
    "Gridpp.Props.c52_utem_grid_out_of_range"
   ],
   "note": "For optimal_interpolation_ensi, ebesc and their grid versions the claim holds for every ensemble, missing pattern and number of observations (c52_ensi*, c52_ebesc*), with the exceptions named: arma::inv, and std::logic_error of ebe/ebesc exactly when an incomplete member precedes a complete one and some point is affected (c52_*_gap). ebe and utem only if there are at most as many observations as output points; otherwise, with one complete member, the negation is proved (c52_*_out_of_range: undefined behaviour)."
  },
  {
   "property": "C53",
   "status": "proved",
   "theorems": [
    "Gridpp.Props.c53_ts",
    "Gridpp.Props.c53_pc",
    "Gridpp.Props.c53_kss",
    "Gridpp.Props.c53_ets",
    "Gridpp.Props.c53_hss",
    "Gridpp.Props.c53_bias",
    "Gridpp.Props.c53_perfect",
    "Gridpp.Props.c53_unknown"
   ],
   "note": "Every score equals its textbook definition where that is defined and is missing otherwise; ranges and perfect scores for all non-negative tables."
  },
  {
   "property": "C54",
   "status": "proved",
   "theorems": [
    "Gridpp.Props.c54_counts",
    "Gridpp.Props.c54_no_threshold",
    "Gridpp.Props.c54_reads_outside",
    "Gridpp.Props.c54_one_threshold"
   ],
   "note": "Exact counts for every threshold that is a number; a missing threshold counts nothing. ref shorter than fcst reads outside ref (not checked by the code). The saturation of float counters at 2^24 is not modelled."
  },
  {
   "property": "C55",
   "status": "partial",
   "theorems": [
    "Gridpp.Props.c55_symmetric_partial",
    "Gridpp.Props.c55_autoregressive_partial",
    "Gridpp.Props.c55_cressman_partial",
    "Gridpp.Props.c55_value",
    "Gridpp.Props.c55_default_self",
    "Gridpp.Props.c55_soar_counterexample",
    "Gridpp.Props.c55_toar_counterexample",
    "Gridpp.Props.c55_cressman_counterexample",
    "Gridpp.Props.c55_linear_counterexample",
    "Gridpp.Props.c55_hmax_counterexample"
   ],
   "note": "Proved for Barnes and powerlaw without restriction and for linear with minimum correlations at most 1. False for SOAR, TOAR and Cressman when the elevation or land fraction difference is negative, for linear with a minimum correlation above 1, and for SOAR/TOAR with hmax = 0 (counterexamples proved); proved for these where it holds."
  },
  {
   "property": "C56",
   "status": "partial",
   "theorems": [
    "Gridpp.Props.c56_zero_partial",
    "Gridpp.Props.c56_monotone_partial",
    "Gridpp.Props.c56_cressman_monotone_partial",
    "Gridpp.Props.c56_hmax",
    "Gridpp.Props.c56_cressman_counterexample"
   ],
   "note": "Zero beyond the localization distance for every structure function except Cressman with h = 0 (counterexample proved). Non-increasing in distance; for SOAR, TOAR and Cressman only where the other factors are not negative."
  },
  {
   "property": "C57",
   "status": "partial",
   "theorems": [
    "Gridpp.Props.c57_vector_partial",
    "Gridpp.Props.c57_background_partial",
    "Gridpp.Props.c57_clone",
    "Gridpp.Props.c57_composite",
    "Gridpp.Props.c57_refuse",
    "Gridpp.Props.c57_crossval",
    "Gridpp.Props.c57_multiple",
    "Gridpp.Props.c57_built",
    "Gridpp.Props.c57_counterexample"
   ],
   "note": "Scalar and vector agree unless a localization distance is NaN (missing horizontal scale in a spatially varying structure function): there they differ (counterexample proved). Clones, CrossValidation and MultipleStructure proved in full."
  },
  {
   "property": "C58",
   "status": "partial",
   "theorems": [
    "Gridpp.Props.c58_roundtrip_partial",
    "Gridpp.Props.c58_negative_parameter",
    "Gridpp.Props.c58_missing",
    "Gridpp.Props.c58_below",
    "Gridpp.Props.c58_increasing",
    "Gridpp.Props.c58_vec",
    "Gridpp.Props.c58_vec2",
    "Gridpp.Props.c58_vec3",
    "Gridpp.Props.c58_constructed",
    "Gridpp.Props.c58_gamma_throws"
   ],
   "note": "Inverse on the domain of each transform for identity, log, Box-Cox with parameter >= 0 and gamma (gamma with the external distribution functions as a lawful oracle). Missing: Box-Cox with a negative parameter, for which the property is false near the upper end of the range (c58_negative_parameter). Exact arithmetic."
  },
  {
   "property": "C59",
   "status": "proved",
   "theorems": [
    "Gridpp.Props.c59_table",
    "Gridpp.Props.c59_relative_humidity",
    "Gridpp.Props.c59_humidity_increasing",
    "Gridpp.Props.c59_humidity_missing",
    "Gridpp.Props.c59_dewpoint",
    "Gridpp.Props.c59_dewpoint_missing",
    "Gridpp.Props.c59_dry_air",
    "Gridpp.Props.c59_wetbulb_missing",
    "Gridpp.Props.c59_wetbulb_between",
    "Gridpp.Props.c68_relative_humidity",
    "Gridpp.Props.c68_dewpoint",
    "Gridpp.Props.c68_wetbulb",
    "Gridpp.Props.c68_total"
   ],
   "note": "Exact arithmetic; exp and log by their laws. c59_dry_air records that relative humidity 0 gives the temperature as dew point."
  },
  {
   "property": "C60",
   "status": "partial",
   "theorems": [
    "Gridpp.Props.c60_identity",
    "Gridpp.Props.c60_zero_temperature",
    "Gridpp.Props.c60_composition",
    "Gridpp.Props.c60_proportional",
    "Gridpp.Props.c60_decreasing",
    "Gridpp.Props.c60_missing",
    "Gridpp.Props.c60_qnh",
    "Gridpp.Props.c60_qnh_missing",
    "Gridpp.Props.c60_slp_dewpoint",
    "Gridpp.Props.c60_slp_humidity",
    "Gridpp.Props.c60_slp_dry",
    "Gridpp.Props.c60_slp_throws"
   ],
   "note": "Property false at a temperature of 0 K (c60_zero_temperature) and for sea_level_pressure with relative humidity 0 (c60_slp_dry); everything else of the statement is proved for all other inputs in exact arithmetic."
  },
  {
   "property": "C61",
   "status": "partial",
   "theorems": [
    "Gridpp.Props.c61_speed",
    "Gridpp.Props.c61_missing",
    "Gridpp.Props.c61_range",
    "Gridpp.Props.c61_polar_partial",
    "Gridpp.Props.c61_determined_exact",
    "Gridpp.Props.c61_ambiguous"
   ],
   "note": "Direction with the code's constant for pi does not determine the wind in a band of about 0.0000002 degrees around south (c61_ambiguous); outside the band it does (c61_polar_partial). Signed zeros not modelled."
  },
  {
   "property": "C62",
   "status": "partial",
   "theorems": [
    "Gridpp.Props.c62_probability",
    "Gridpp.Props.c62_range",
    "Gridpp.Props.c62_complement",
    "Gridpp.Props.c62_missing_threshold",
    "Gridpp.Props.c62_unknown_operator",
    "Gridpp.Props.c62_unchecked",
    "Gridpp.Props.c62_consensus",
    "Gridpp.Props.c62_quantile",
    "Gridpp.Props.c62_unknown_statistic"
   ],
   "note": "Proved for all ensembles, operators and thresholds that are not missing; false for a missing threshold (c62_missing_threshold: both probabilities are 0). Grids through the r-tree oracle."
  },
  {
   "property": "C63",
   "status": "partial",
   "theorems": [
    "Gridpp.Props.c63_correction_partial",
    "Gridpp.Props.c63_one_time",
    "Gridpp.Props.c63_throws",
    "Gridpp.Props.c63_correlations",
    "Gridpp.Props.c63_not_clamped",
    "Gridpp.Props.c63_range_reversed",
    "Gridpp.Props.c63_range_above",
    "Gridpp.Props.c63_value_lost",
    "Gridpp.Props.c63_empty_background",
    "Gridpp.Props.c63_unchecked"
   ],
   "note": "Proved for quantile limits 0 <= min <= max <= 1, matching sizes and positive correlations: no invalid range, background kept where missing or too few observations, corrected values as specified. The claim is false of the code in other respects: the corrected value is not clamped, reversed or large limits form invalid ranges, zero correlations lose the value, sizes are not checked."
  },
  {
   "property": "C64",
   "status": "partial",
   "theorems": [
    "Gridpp.Props.c64_search",
    "Gridpp.Props.c64_origin",
    "Gridpp.Props.c64_closest",
    "Gridpp.Props.c64_throws",
    "Gridpp.Props.c64_unchecked"
   ],
   "note": "Everything proved for fields of one size and flags of that size or none; flags with more than one row of a different size throw. Missing: flags of one row are not checked (c64_unchecked: undefined behaviour), neither are empty fields and ragged rows."
  },
  {
   "property": "C65",
   "status": "partial",
   "theorems": [
    "Gridpp.Props.c65_throws",
    "Gridpp.Props.c65_minmax",
    "Gridpp.Props.c65_regression",
    "Gridpp.Props.c65_regression_linear",
    "Gridpp.Props.c65_minmax_linear",
    "Gridpp.Props.c65_regression_finite",
    "Gridpp.Props.c65_minmax_finite_partial",
    "Gridpp.Props.c65_other",
    "Gridpp.Props.c65_not_finite",
    "Gridpp.Props.c65_ragged"
   ],
   "note": "All parts proved for LinearRegression; MinMax also, except that without min_range (the default) a constant base gives NaN instead of the default gradient (c65_not_finite). Ragged input is undefined behaviour (c65_ragged). Exact arithmetic."
  },
  {
   "property": "C66",
   "status": "partial",
   "theorems": [
    "Gridpp.Props.c66_disjoint_partial",
    "Gridpp.Props.c66_for_loop",
    "Gridpp.Props.c66_replicated_loop",
    "Gridpp.Props.c66_quantile_fast_counterexample"
   ],
   "note": "General disjoint-ownership theorem over all interleavings, plus the two loop shapes used; false of neighbourhood_quantile_fast (counter-example). The classification of each loop in the sources as one of these shapes is by reading."
  },
  {
   "property": "C67",
   "status": "partial",
   "theorems": [
    "Gridpp.Props.c67_parallel",
    "Gridpp.Props.c67_loop",
    "Gridpp.Props.c67_window_raises",
    "Gridpp.Props.c67_window_terminates",
    "Gridpp.Props.c67_neighbourhood_raises",
    "Gridpp.Props.c67_neighbourhood_terminates",
    "Gridpp.Props.c67_apply_curve",
    "Gridpp.Props.c67_sea_level_pressure",
    "Gridpp.Props.c67_gridding",
    "Gridpp.Props.c67_downscaling_partial",
    "Gridpp.Props.c67_score_partial",
    "Gridpp.Props.c67_constructors_partial",
    "Gridpp.Props.c67_vectors",
    "Gridpp.Props.c67_curves",
    "Gridpp.Props.c67_search",
    "Gridpp.Props.c67_calc_gradient",
    "Gridpp.Props.c67_quantile_fast",
    "Gridpp.Props.c67_points",
    "Gridpp.Props.c67_distance",
    "Gridpp.Props.c67_gridding_raises",
    "Gridpp.Props.c67_fill",
    "Gridpp.Props.c67_downscaling",
    "Gridpp.Props.c67_nearest_terminates",
    "Gridpp.Props.c67_oi",
    "Gridpp.Props.c67_oi_grid",
    "Gridpp.Props.c67_gamma_inv",
    "Gridpp.Props.c67_local_distribution",
    "Gridpp.Props.c67_nearest_points",
    "Gridpp.Props.c67_downscaling_times",
    "Gridpp.Props.c67_simple_gradient",
    "Gridpp.Props.c67_full_gradient_grid",
    "Gridpp.Props.c67_full_gradient_points",
    "Gridpp.Props.c67_gridding_nearest_grid",
    "Gridpp.Props.c67_gridding_nearest_points",
    "Gridpp.Props.c67_neighbourhood_score",
    "Gridpp.Props.c67_gamma_transform",
    "Gridpp.Props.c67_ensi",
    "Gridpp.Props.c67_ebesc",
    "Gridpp.Props.c67_ebe",
    "Gridpp.Props.c67_utem",
    "Gridpp.Props.c67_ensi_grid",
    "Gridpp.Props.c67_ebesc_grid",
    "Gridpp.Props.c67_ebe_grid",
    "Gridpp.Props.c67_utem_grid",
    "Gridpp.Props.c67_full_gradient_debug",
    "Gridpp.Props.c67_metric_optimizer",
    "Gridpp.Props.c67_case_more",
    "Gridpp.Props.c67_case_grids",
    "Gridpp.Props.c67_case_fill",
    "Gridpp.Props.c67_case_ensemble",
    "Gridpp.Props.c67_case_gradient",
    "Gridpp.Props.c67_case_gridding_nearest",
    "Gridpp.Props.c67_case_ensemble_grid",
    "Gridpp.Props.c67_case_debug"
   ],
   "note": "False: an exception that leaves a parallel loop terminates the process (window, neighbourhood, apply_curve, gridding with some statistics or policies, nearest with an output location unusable in the coordinate type of the input). For the listed functions it is proved exactly which calls raise an exception; for the methods for ensembles, on points and on grids, exactly which calls raise std::invalid_argument (a singular matrix raises std::runtime_error there)."
  },
  {
   "property": "C68",
   "status": "partial",
   "theorems": [
    "Gridpp.Props.c68_dewpoint",
    "Gridpp.Props.c68_relative_humidity",
    "Gridpp.Props.c68_wetbulb",
    "Gridpp.Props.c68_pressure",
    "Gridpp.Props.c68_sea_level_pressure",
    "Gridpp.Props.c68_qnh",
    "Gridpp.Props.c68_wind_speed",
    "Gridpp.Props.c68_wind_direction",
    "Gridpp.Props.c68_total",
    "Gridpp.Props.c68_interpolate",
    "Gridpp.Props.c68_apply_curve",
    "Gridpp.Props.c68_apply_curve_field",
    "Gridpp.Props.c68_apply_curve_spatial_partial",
    "Gridpp.Props.c68_apply_curve_spatial_throws",
    "Gridpp.Props.c68_apply_curve_spatial_unchecked",
    "Gridpp.Props.c58_vec",
    "Gridpp.Props.c58_vec2",
    "Gridpp.Props.c58_vec3"
   ],
   "note": "Proved for all overloads; for apply_curve with one curve per cell the size check is incomplete (c68_apply_curve_spatial_unchecked: undefined behaviour for an empty field and for a short second row)."
  },
  {
   "property": "C69",
   "status": "proved",
   "theorems": [
    "Gridpp.Props.c69_staticcorr",
    "Gridpp.Props.c69_sparse",
    "Gridpp.Props.c69_throws"
   ],
   "note": "For structure functions that give finite correlations (see C56, C57). A knot at distance exactly the radius along an axis is not found (C12)."
  },
  {
   "property": "C70",
   "status": "partial",
   "theorems": [
    "Gridpp.Props.c70_smart_partial",
    "Gridpp.Props.c70_reads_outside",
    "Gridpp.Props.c70_empty_case",
    "Gridpp.Props.c70_unchecked",
    "Gridpp.Props.c70_correlations"
   ],
   "note": "The mean is right where every output cell has a neighbour. False otherwise: with no neighbour rhos[0] of an empty vector is read; ivalues is not checked either."
  },
  {
   "property": "C71",
   "status": "proved",
   "theorems": [
    "Gridpp.Props.c71_random_choice",
    "Gridpp.Props.c71_refused"
   ],
   "note": "RandomChoice for every value of rand(); Quantile and Unknown throw."
  },
  {
   "property": "C72",
   "status": "proved",
   "theorems": [
    "Gridpp.Props.c72_general",
    "Gridpp.Props.c72_cartesian",
    "Gridpp.Props.c72_geodetic",
    "Gridpp.Props.c72_order"
   ],
   "note": "Geodetic part over the reals with the source formula."
  },
  {
   "property": "C73",
   "status": "partial",
   "theorems": [
    "Gridpp.Props.c73_partial",
    "Gridpp.Props.c73_location",
    "Gridpp.Props.c73_grid_partial",
    "Gridpp.Props.c73_parallel_rows_abort",
    "Gridpp.Props.c73_small_cell_throws",
    "Gridpp.Props.c73_trapezoid_abort",
    "Gridpp.Props.c73_abort_counterexample"
   ],
   "note": "False: cells with parallel rows stored north to south abort; small distorted cells throw (witnesses). Holds for positively oriented convex cells that are parallelograms or clearly not."
  },
  {
   "property": "C74",
   "status": "partial",
   "theorems": [
    "Gridpp.Props.c74_threshold_partial",
    "Gridpp.Props.c74_curve",
    "Gridpp.Props.c74_sizes",
    "Gridpp.Props.c74_all_missing",
    "Gridpp.Props.c74_boundary_kept",
    "Gridpp.Props.c74_infinite",
    "Gridpp.Props.c74_case_missing",
    "Gridpp.Props.c74_result",
    "Gridpp.Props.c74_case_kept"
   ],
   "note": "Brent's method is an oracle that returns a point of the interval and the value there. False: the comparison with the scores at the range ends has the wrong sign, so thresholds no better than the ends are kept (c74_boundary_kept), and with infinite forecasts the range misses finite forecasts (c74_infinite). Forecasts that are all missing give no threshold (c74_all_missing)."
  },
  {
   "property": "C75",
   "status": "partial",
   "theorems": [
    "Gridpp.Props.c75_neighbourhood_score",
    "Gridpp.Props.c75_throws_partial",
    "Gridpp.Props.c75_unknown_metric",
    "Gridpp.Props.c75_empty_forecast"
   ],
   "note": "Full statement for forecasts of the grid's size. False: an empty forecast passes the size check and is then read out of range; an unknown metric ends the process."
  },
  {
   "property": "C76",
   "status": "proved",
   "theorems": [
    "Gridpp.Props.c76_ensi",
    "Gridpp.Props.c76_ensi_grid"
   ],
   "note": "Ensembles in which the members without missing values in the background are exactly those with values at every observation; at least two of them; non-zero sigmas; allow_extrapolation = true. Armadillo's inv, rcond and eig_sym by the contract ArmaE.Lawful (met over the reals by ArmaE.exact)."
  },
  {
   "property": "C77",
   "status": "partial",
   "theorems": [
    "Gridpp.Props.c77_ensi_partial",
    "Gridpp.Props.c77_ensi_grid_partial",
    "Gridpp.Props.c77_wrong_member"
   ],
   "note": "claim refuted (c77_wrong_member): the filter uses one element of the perturbation matrix for all observations; proved: what the filter does in general, and the claim where one observation is selected"
  },
  {
   "property": "C78",
   "status": "proved",
   "theorems": [
    "Gridpp.Props.c78_ebesc",
    "Gridpp.Props.c78_ebesc_grid"
   ],
   "note": "for ensembles whose complete members are the first n"
  },
  {
   "property": "C79",
   "status": "partial",
   "theorems": [
    "Gridpp.Props.c79_ebe_partial",
    "Gridpp.Props.c79_ebe_grid_partial",
    "Gridpp.Props.c79_not_correlation"
   ],
   "note": "proved with the factor n/(n-1) the code puts on every correlation; the claim without it is refuted"
  },
  {
   "property": "C80",
   "status": "partial",
   "theorems": [
    "Gridpp.Props.c80_high",
    "Gridpp.Props.c80_high_monotone",
    "Gridpp.Props.c80_low_dry",
    "Gridpp.Props.c80_low_dewpoint",
    "Gridpp.Props.c80_low_humidity",
    "Gridpp.Props.c80_jump"
   ],
   "note": "formulas on both sides of 50 m and monotonicity proved; the part of the claim that they agree at 50 m is refuted (c80_jump)"
  },
  {
   "property": "C81",
   "status": "partial",
   "theorems": [
    "Gridpp.Props.c81_utem_partial",
    "Gridpp.Props.c81_utem_grid_partial",
    "Gridpp.Props.c81_utem_filter_partial",
    "Gridpp.Props.c81_utem_filter_grid_partial",
    "Gridpp.Props.c81_collapse",
    "Gridpp.Props.c81_collapse_wrong",
    "Gridpp.Props.c81_not_correlation"
   ],
   "note": "Proved with the correlations multiplied by n/(n-1) (c81_not_correlation shows that the factor matters) and where the second ensemble varies at the output point. Where it does not, the code makes all members equal to the mean instead of leaving them (c81_collapse, c81_collapse_wrong). Without extrapolation the limit has the wrong-member defect of C77."
  },
  {
   "property": "C82",
   "status": "partial",
   "theorems": [
    "Gridpp.Props.c82_rejects",
    "Gridpp.Props.c82_quantile_partial",
    "Gridpp.Props.c82_level_one",
    "Gridpp.Props.c82_short"
   ],
   "note": "False at level 1: the check accepts it, boost's overflow_error leaves a parallel region and terminates the process. Sizes are not compared. The quantile of boost is a contract."
  },
  {
   "property": "C83",
   "status": "proved",
   "theorems": [
    "Gridpp.Props.c83_thresholds",
    "Gridpp.Props.c83_cases"
   ],
   "note": ""
  },
  {
   "property": "C84",
   "status": "partial",
   "theorems": [
    "Gridpp.Props.c84_new",
    "Gridpp.Props.c84_access",
    "Gridpp.Props.c84_members",
    "Gridpp.Props.c84_equal_partial",
    "Gridpp.Props.c84_shape_ignored"
   ],
   "note": "False for the comparison of Fields of different sizes: only the flat vectors are compared."
  },
  {
   "property": "C85",
   "status": "partial",
   "theorems": [
    "Gridpp.Props.c85_accumulate_partial",
    "Gridpp.Props.c85_accumulate_nonneg",
    "Gridpp.Props.c85_collision",
    "Gridpp.Props.c85_deaccumulate",
    "Gridpp.Props.c85_negative_window",
    "Gridpp.Props.c85_inverse"
   ],
   "note": "False for values with partial sums of -999, which is taken for missing (c85_collision); the rest is proved, and the whole claim for values that are not negative. A negative window reads out of bounds."
  },
  {
   "property": "C86",
   "status": "proved",
   "theorems": [
    "Gridpp.Props.c86_shuffle",
    "Gridpp.Props.c86_unchanged"
   ],
   "note": ""
  },
  {
   "property": "C87",
   "status": "partial",
   "theorems": [
    "Gridpp.Props.c87_sort",
    "Gridpp.Props.c87_nan",
    "Gridpp.Props.c87_no_members"
   ],
   "note": "False for NaN members (std::sort without an order: undefined behaviour) and for files without members (aborts); proved otherwise."
  },
  {
   "property": "C88",
   "status": "partial",
   "theorems": [
    "Gridpp.Props.c88_qc_partial",
    "Gridpp.Props.c88_qc_order",
    "Gridpp.Props.c88_cloud",
    "Gridpp.Props.c88_phase",
    "Gridpp.Props.c88_threshold",
    "Gridpp.Props.firstBelow_unique"
   ],
   "note": "qc with min > max does not clamp (witness c88_qc_order); everything else proved in full"
  },
  {
   "property": "C89",
   "status": "proved",
   "theorems": [
    "Gridpp.Props.c89_value",
    "Gridpp.Props.c89_missing",
    "Gridpp.Props.c89_bad_level",
    "Gridpp.Props.c89_ambiguous",
    "Gridpp.Props.statOf_unique"
   ],
   "note": ""
  },
  {
   "property": "C90",
   "status": "proved",
   "theorems": [
    "Gridpp.Props.c90_window",
    "Gridpp.Props.c90_refused",
    "Gridpp.Props.statOf_unique"
   ],
   "note": ""
  },
  {
   "property": "C91",
   "status": "partial",
   "theorems": [
    "Gridpp.Props.c91_nearest_partial",
    "Gridpp.Props.c91_grid_partial",
    "Gridpp.Props.c91_refused",
    "Gridpp.Props.c91_latitude",
    "Gridpp.Props.c91_sphere_false"
   ],
   "note": "False on the sphere: a grid point beyond the date line is missed (c91_sphere_false). Proved for every distance with the separation property; that property proved for sections in latitude on the sphere"
  },
  {
   "property": "C92",
   "status": "partial",
   "theorems": [
    "Gridpp.Props.c92_brute",
    "Gridpp.Props.c92_brute_missing",
    "Gridpp.Props.c92_brute_grid_partial",
    "Gridpp.Props.c92_tree_grid_partial",
    "Gridpp.Props.c92_same_grid",
    "Gridpp.Props.c92_scan_not_tree"
   ],
   "note": "Missing coordinates get their own indices instead of -999 if the grids are identical; the tree search is only right for distances that separate (C91), on the sphere it differs from the scan (c92_scan_not_tree)."
  },
  {
   "property": "C93",
   "status": "partial",
   "theorems": [
    "Gridpp.Props.c93_field",
    "Gridpp.Props.c93_downscale_partial",
    "Gridpp.Props.c93_times",
    "Gridpp.Props.c93_members",
    "Gridpp.Props.c93_vec",
    "Gridpp.Props.c93_vec_missing_false"
   ],
   "note": "downscaleVec aborts for a missing neighbour (c93_vec_missing_false). With the tree search the neighbour is nearest only for distances that separate (C91)."
  },
  {
   "property": "C94",
   "status": "partial",
   "theorems": [
    "Gridpp.Props.c94_lats",
    "Gridpp.Props.c94_lons_partial",
    "Gridpp.Props.c94_zero_false",
    "Gridpp.Props.c94_lats_range",
    "Gridpp.Props.c94_lons_range",
    "Gridpp.Props.c94_size"
   ],
   "note": "False for a longitude of zero (c94_zero_false); missing coordinates cannot be stored (range theorems)."
  },
  {
   "property": "C95",
   "status": "partial",
   "theorems": [
    "Gridpp.Props.c95_tags",
    "Gridpp.Props.c95_tree_partial",
    "Gridpp.Props.c95_any",
    "Gridpp.Props.c95_answers",
    "Gridpp.Props.c95_nearest_partial",
    "Gridpp.Props.c95_shared_false"
   ],
   "note": "The cache is never stale. That the table is that of the search asked for is false when both searches are used (c95_shared_false); it holds in executions without scans."
  },
  {
   "property": "C96",
   "status": "partial",
   "theorems": [
    "Gridpp.Props.c96_field",
    "Gridpp.Props.c96_missing_false",
    "Gridpp.Props.c96_downscale_partial",
    "Gridpp.Props.c96_falls",
    "Gridpp.Props.c96_back"
   ],
   "note": "Proved for output points with a neighbour; without one the code aborts (c96_missing_false). Whole downscaler under the separation law of the distance (see C91)."
  },
  {
   "property": "C97",
   "status": "partial",
   "theorems": [
    "Gridpp.Props.c97_field",
    "Gridpp.Props.c97_upscale_partial"
   ],
   "note": "Proved completely for a given table; the whole downscaler under the separation law of the distance (see C91)."
  },
  {
   "property": "C98",
   "status": "partial",
   "theorems": [
    "Gridpp.Props.c98_points",
    "Gridpp.Props.c98_nearest",
    "Gridpp.Props.c98_missing_false",
    "Gridpp.Props.c98_value",
    "Gridpp.Props.c98_downscale_partial"
   ],
   "note": "Proved for output points with a neighbour; without one elevations are read outside of the array (c98_missing_false). Whole downscaler under the separation law of the distance (see C91)."
  },
  {
   "property": "C99",
   "status": "partial",
   "theorems": [
    "Gridpp.Props.c99_gradient_partial",
    "Gridpp.Props.c99_lapse",
    "Gridpp.Props.c99_island_false"
   ],
   "note": "False of the code where the sum of the squared elevations is the square of their sum: the code compares the raw sums before it divides by the number of points, so an island in a flat sea (elevations 0 and 30) gets the default gradient (c99_island_false). The rest is proved, also that a slope of exactly -999 counts as missing."
  },
  {
   "property": "C100",
   "status": "partial",
   "theorems": [
    "Gridpp.Props.c100_gradient_partial",
    "Gridpp.Props.c100_order_false",
    "Gridpp.Props.c100_sea_false"
   ],
   "note": "False of the code if the radii decrease (the extreme points of the previous radius are kept, c100_order_false) and where the fraction is missing (counted as sea, c100_sea_false). Proved for radii that do not decrease, a positive minLafDiff, positive weights and known fractions (or minFracSeaPoints at most 0). A weighted sum of exactly -999 counts as missing."
  },
  {
   "property": "C101",
   "status": "partial",
   "theorems": [
    "Gridpp.Props.c101_field_partial",
    "Gridpp.Props.c101_downscale_partial",
    "Gridpp.Props.c101_bilinear_partial",
    "Gridpp.Props.c101_bilinear_limit",
    "Gridpp.Props.c101_same",
    "Gridpp.Props.c101_domain",
    "Gridpp.Props.c101_limit_false",
    "Gridpp.Props.c101_case_bilinear",
    "Gridpp.Props.c101_case_options"
   ],
   "note": "False of the code with limit: because of an else-if the maximum of the neighbourhood misses values, and a value inside the range is changed (c101_limit_false); proved that the result is within the range. The distance is assumed to separate points as in C91. With downscaler=bilinear the same is proved for the interpolated value, elevation and land area fraction, if the interpolations of DownscalerBilinear give a result (C116)."
  },
  {
   "property": "C102",
   "status": "proved",
   "theorems": [
    "Gridpp.Props.c102_split",
    "Gridpp.Props.c102_content"
   ],
   "note": "All texts and delimiters; the words are unique (c102_split)."
  },
  {
   "property": "C103",
   "status": "partial",
   "theorems": [
    "Gridpp.Props.c103_add",
    "Gridpp.Props.c103_parse",
    "Gridpp.Props.c103_get",
    "Gridpp.Props.c103_values",
    "Gridpp.Props.c103_values_none",
    "Gridpp.Props.c103_text_partial",
    "Gridpp.Props.c103_equal_partial",
    "Gridpp.Props.c103_check",
    "Gridpp.Props.c103_text_false",
    "Gridpp.Props.c103_equal_false",
    "Gridpp.Props.c103_check_false"
   ],
   "note": "toString and operator== are false for values with white space: an object with such a value is not equal to itself (c103_equal_false) and its text makes another object (c103_text_false); both proved for values without white space. A comparison marks keys as read, so check misses unused keys afterwards (c103_check_false). Only T = std::string of the templates is modelled."
  },
  {
   "property": "C104",
   "status": "partial",
   "theorems": [
    "Gridpp.Props.c104_date_partial",
    "Gridpp.Props.c104_date_before",
    "Gridpp.Props.c104_date_false",
    "Gridpp.Props.c104_time",
    "Gridpp.Props.c104_unix",
    "Gridpp.Props.c104_days",
    "Gridpp.Props.c104_back",
    "Gridpp.Props.c104_calc",
    "Gridpp.Props.c104_invalid"
   ],
   "note": "getDate is wrong before 1970 except at midnight (c104_date_false): the division by 86400 is cut towards zero. Everything else holds for the years 1400-9999. boost's calendar algorithm is modelled and proved against the calendar."
  },
  {
   "property": "C105",
   "status": "partial",
   "theorems": [
    "Gridpp.Props.c105_interpolate_partial",
    "Gridpp.Props.c105_mono",
    "Gridpp.Props.c105_library",
    "Gridpp.Props.c105_invalid",
    "Gridpp.Props.c105_missing_false"
   ],
   "note": "False when the first knot is missing (-999): the process is terminated instead of the knot being skipped; proved for curves without missing knots."
  },
  {
   "property": "C106",
   "status": "partial",
   "theorems": [
    "Gridpp.Props.c106_qq_partial",
    "Gridpp.Props.c106_order",
    "Gridpp.Props.c106_errors",
    "Gridpp.Props.c106_train",
    "Gridpp.Props.c106_train_quantiles",
    "Gridpp.Props.c106_train_single_false",
    "Gridpp.Props.c106_zero_false",
    "Gridpp.Props.c106_nearest_false",
    "Gridpp.Props.c106_twice_false"
   ],
   "note": "False for policy zero with one point, for slopes over equal forecasts, and for training with quantiles from one case; extra points are added twice. Proved for regular curves."
  },
  {
   "property": "C107",
   "status": "partial",
   "theorems": [
    "Gridpp.Props.c107_store",
    "Gridpp.Props.c107_times",
    "Gridpp.Props.c107_all",
    "Gridpp.Props.c107_nearest_partial",
    "Gridpp.Props.c107_without_tree",
    "Gridpp.Props.c107_empty",
    "Gridpp.Props.c107_number",
    "Gridpp.Props.c107_second_tree_false",
    "Gridpp.Props.c107_single_false",
    "Gridpp.Props.c107_missing_place_false",
    "Gridpp.Props.c107_number_false"
   ],
   "note": "Storing, times and counting proved for all histories. Nearest place proved when the tree is computed once, under the assumption of C91 on distances. False: a second recomputeTree, a file with one place, a missing place, and the header's claims on getNearestLocation and getNumParameters; an empty file is undefined behaviour."
  },
  {
   "property": "C108",
   "status": "partial",
   "theorems": [
    "Gridpp.Props.c108_polynomial",
    "Gridpp.Props.c108_variables_partial",
    "Gridpp.Props.c108_errors",
    "Gridpp.Props.c108_train_line",
    "Gridpp.Props.c108_train_slope",
    "Gridpp.Props.c108_train_constant",
    "Gridpp.Props.c108_train_errors",
    "Gridpp.Props.c108_train_equal_false",
    "Gridpp.Props.c108_missing_predictor_false"
   ],
   "note": "Polynomial and training proved. False: a missing predictor is used as -999, and equal forecasts give NaN parameters."
  },
  {
   "property": "C109",
   "status": "partial",
   "theorems": [
    "Gridpp.Props.c109_wind_partial",
    "Gridpp.Props.c109_wind_sign",
    "Gridpp.Props.c109_wind_errors",
    "Gridpp.Props.c109_qnh",
    "Gridpp.Props.c109_standard",
    "Gridpp.Props.c109_missing_parameter_false",
    "Gridpp.Props.c109_missing_value_false"
   ],
   "note": "QNH proved in full. Wind direction proved for present values; false where a parameter is missing (value times -999) and where the value is missing (-999 times the factor)."
  },
  {
   "property": "C110",
   "status": "partial",
   "theorems": [
    "Gridpp.Props.c110_mask",
    "Gridpp.Props.c110_mask_times_partial",
    "Gridpp.Props.c110_mask_times_false",
    "Gridpp.Props.c110_errors",
    "Gridpp.Props.c110_override_partial",
    "Gridpp.Props.c110_altitude_partial",
    "Gridpp.Props.c110_elevation_false"
   ],
   "note": "mask proved for radii that do not depend on time, false otherwise (a grid point once inside stays inside). override and altitude under the assumption of C91 on distances; altitude uses the elevation first given for a place."
  },
  {
   "property": "C111",
   "status": "proved",
   "theorems": [
    "Gridpp.Props.c111_value",
    "Gridpp.Props.c111_options",
    "Gridpp.Props.c111_negative_radius",
    "Gridpp.Props.c111_location",
    "Gridpp.Props.c111_approx_differs"
   ],
   "note": "Finding: a negative radius from a parameter file is not refused; with sums memory outside the table is read, otherwise the program stops (c111_negative_radius). The approximation can differ from the statistic (c111_approx_differs). Exact arithmetic."
  },
  {
   "property": "C112",
   "status": "proved",
   "theorems": [
    "Gridpp.Props.c112_dewpoint",
    "Gridpp.Props.c112_rh",
    "Gridpp.Props.c112_wetbulb",
    "Gridpp.Props.c112_errors",
    "Gridpp.Props.c112_other"
   ],
   "note": "Agreement with the library needs finite inputs other than -999; the bounds on the wet-bulb temperature also need a positive pressure and a dew point below the temperature. Where an input is missing a stale value stays. Exact arithmetic, lawful exp and log."
  },
  {
   "property": "C113",
   "status": "proved",
   "theorems": [
    "Gridpp.Props.c113_value",
    "Gridpp.Props.c113_inverse",
    "Gridpp.Props.c113_errors"
   ],
   "note": "Over the reals with the true sine, cosine and argument. Zeros have no sign in the model, so the direction of calm wind is not that of atan2(-0, -0) in the code; c113_inverse is for positive speed. The round trip is stated for the functions at one place; a component equal to -999 would count as missing in a second run."
  },
  {
   "property": "C114",
   "status": "partial",
   "theorems": [
    "Gridpp.Props.c114_value_partial",
    "Gridpp.Props.c114_end",
    "Gridpp.Props.c114_errors",
    "Gridpp.Props.c114_order",
    "Gridpp.Props.c114_missing_laf",
    "Gridpp.Props.c114_negative_radius"
   ],
   "note": "False as stated: the field is updated in place, so a value is computed from new values at the points handled before it; c114_order shows that the result depends on the order of the rows, which is up to the threads. c114_value_partial says exactly which values are used for any order of the grid points. Interleaving within a grid point (data race) and the training are not modelled. Also shown: a missing land fraction counts as the least land, and a negative radius is not refused and uses -999 as a number."
  },
  {
   "property": "C115",
   "status": "partial",
   "theorems": [
    "Gridpp.Props.c115_value",
    "Gridpp.Props.c115_convex",
    "Gridpp.Props.c115_negative",
    "Gridpp.Props.c115_corner_false",
    "Gridpp.Props.c115_trapezoid"
   ],
   "note": "Exact for the cells in Supported (parallel sides within 1e-6 of a parallelogram, or a general cell with the orientation of the formulas). For the other orientation the wrong root is taken (c115_negative); a concrete corner that does not get its value in c115_corner_false; trapezoids in c115_trapezoid."
  },
  {
   "property": "C116",
   "status": "partial",
   "theorems": [
    "Gridpp.Props.c116_value_partial",
    "Gridpp.Props.c116_regular_partial",
    "Gridpp.Props.c116_no_return",
    "Gridpp.Props.c116_no_return_ub",
    "Gridpp.Props.c116_missing_place",
    "Gridpp.Props.c116_one_row",
    "Gridpp.Props.c116_north_south",
    "Gridpp.Props.c116_north_south_false",
    "Gridpp.Props.c116_east_west",
    "Gridpp.Props.c116_vector_false",
    "Gridpp.Props.c116_second_attempt"
   ],
   "note": "Value for any grid if the program comes to its end; total for regular grids towards north and east. False otherwise: the bool functions getI and getJ return nothing (undefined behaviour), rows from north to south are not interpolated along the first row, one row or a place without coordinates reads outside, columns from east to west read before the row (typo I == nJ-1), a missing corner is treated differently for vectors."
  },
  {
   "property": "C117",
   "status": "partial",
   "theorems": [
    "Gridpp.Props.c117_value",
    "Gridpp.Props.c117_range",
    "Gridpp.Props.c117_antitone",
    "Gridpp.Props.c117_symmetric",
    "Gridpp.Props.c117_matrix",
    "Gridpp.Props.c117_missing",
    "Gridpp.Props.c117_options"
   ],
   "note": "Proved for places with coordinates and elevation. False otherwise: a station without elevation gets the entries -827.172 in the matrix (c117_missing), and the permitted scale 0 gives NaN at distance 0 (c117_options)."
  },
  {
   "property": "C118",
   "status": "partial",
   "theorems": [
    "Gridpp.Props.c118_value_partial",
    "Gridpp.Props.c118_two_stations",
    "Gridpp.Props.c118_divide_false",
    "Gridpp.Props.c118_missing_parameter",
    "Gridpp.Props.c118_refused",
    "Gridpp.Props.c118_at_station_false",
    "Gridpp.Props.c118_missing_forecast_false",
    "Gridpp.Props.c118_cross_partial",
    "Gridpp.Props.c118_cross_false",
    "Gridpp.Props.c118_aux_partial",
    "Gridpp.Props.c118_aux_false",
    "Gridpp.Props.c118_aux_weight",
    "Gridpp.Props.c118_inverse",
    "Gridpp.Props.c118_solved_partial",
    "Gridpp.Props.c118_singular_false"
   ],
   "note": "Proved for add, subtract and multiply where the matrix of the stations is regular (inverse of C158); false where it is singular: -999 is then used as every element of the inverse. False: division subtracts 1 instead of adding it; cross validation uses a position in the list of near stations as station number (proved if all are near); the auxiliary weights compound over the members; missing forecasts are corrected."
  },
  {
   "property": "C119",
   "status": "partial",
   "theorems": [
    "Gridpp.Props.c119_add",
    "Gridpp.Props.c119_subtract",
    "Gridpp.Props.c119_factor",
    "Gridpp.Props.c119_no_data_partial",
    "Gridpp.Props.c119_no_data_false"
   ],
   "note": "Proved with usable cases. Without them the parameter is 0, which for multiply is a factor 0 and not 'no correction' (witness)."
  },
  {
   "property": "C120",
   "status": "partial",
   "theorems": [
    "Gridpp.Props.c120_array_partial",
    "Gridpp.Props.c120_pointer_partial",
    "Gridpp.Props.c120_lost_false",
    "Gridpp.Props.c120_times",
    "Gridpp.Props.c120_times_missing",
    "Gridpp.Props.c120_skip",
    "Gridpp.Props.c120_skip_false",
    "Gridpp.Props.c120_has",
    "Gridpp.Props.c120_names"
   ],
   "note": "Refinement of an array for all operation sequences, given that no field of a new variable is replaced before it was used; without this the claim is false (c120_lost_false: an added field is lost). A negative time of an unread variable on disk is undefined behaviour."
  },
  {
   "property": "C121",
   "status": "partial",
   "theorems": [
    "Gridpp.Props.c121_new",
    "Gridpp.Props.c121_add_partial",
    "Gridpp.Props.c121_max_false",
    "Gridpp.Props.c121_zero_false",
    "Gridpp.Props.c121_same"
   ],
   "note": "False of the maximum: Variable::add reads it from the key min (c121_max_false for all options). Number parsing is a parameter."
  },
  {
   "property": "C122",
   "status": "partial",
   "theorems": [
    "Gridpp.Props.c122_p0_partial",
    "Gridpp.Props.c122_cdf_partial",
    "Gridpp.Props.c122_quantile_partial",
    "Gridpp.Props.c122_mono_partial",
    "Gridpp.Props.c122_missing",
    "Gridpp.Props.c122_few",
    "Gridpp.Props.c122_coincidence_false"
   ],
   "note": "Proved except when the linear predictor of the logit is exactly -999, which the code takes for a missing value (c122_coincidence_false). Fewer than eight parameters stop the program (c122_few)."
  },
  {
   "property": "C123",
   "status": "partial",
   "theorems": [
    "Gridpp.Props.c123_ensemble_partial",
    "Gridpp.Props.c123_rank_partial",
    "Gridpp.Props.c123_pop_partial",
    "Gridpp.Props.c123_pop_value_partial",
    "Gridpp.Props.c123_six_hours_false",
    "Gridpp.Props.c123_neighbour_false",
    "Gridpp.Props.c123_stale_false"
   ],
   "note": "Ensemble mode proved without neighbours and accumulation. False otherwise: with neighbours the new values of grid points already handled are used (c123_neighbour_false); with 6h and no popVariable the program reads in front of its array (c123_six_hours_false). The mode with popVariable is proved for all neighbourhoods and windows; a missing value leaves the number that was in the field (c123_stale_false)."
  },
  {
   "property": "C124",
   "status": "partial",
   "theorems": [
    "Gridpp.Props.c124_quantile",
    "Gridpp.Props.c124_cdf",
    "Gridpp.Props.c124_inverse",
    "Gridpp.Props.c124_missing",
    "Gridpp.Props.c124_few",
    "Gridpp.Props.c124_ensemble_partial",
    "Gridpp.Props.c124_rank_partial",
    "Gridpp.Props.c124_mean_partial",
    "Gridpp.Props.c124_some_missing_false",
    "Gridpp.Props.c124_low_mean_false",
    "Gridpp.Props.c124_neighbour_false",
    "Gridpp.Props.c124_missing_filled"
   ],
   "note": "Law and single grid points proved. False: an ensemble with some missing members is not left as it is but filled with the quantiles in increasing order (c124_some_missing_false, for all ensembles); a mean up to 0 is not calibrated (c124_low_mean_false); with neighbours the new values of grid points already handled are used (c124_neighbour_false). A quantile that happens to be -999 counts as missing (hypothesis hne)."
  },
  {
   "property": "C125",
   "status": "partial",
   "theorems": [
    "Gridpp.Props.c125_quantile",
    "Gridpp.Props.c125_level_lt",
    "Gridpp.Props.c125_level_unique",
    "Gridpp.Props.c125_missing",
    "Gridpp.Props.c125_level_zero",
    "Gridpp.Props.c125_few",
    "Gridpp.Props.c125_negative_false",
    "Gridpp.Props.c125_ensemble",
    "Gridpp.Props.c125_rank_partial"
   ],
   "note": "False part: values are negative if a + b m < 0 (c125_negative_false). The rank theorem is for members that are different and not negative and a + b m > 0. The documented option maxEnsMean is not read (the limit is always 100)."
  },
  {
   "property": "C126",
   "status": "partial",
   "theorems": [
    "Gridpp.Props.c126_lines",
    "Gridpp.Props.c126_read",
    "Gridpp.Props.c126_get",
    "Gridpp.Props.c126_white",
    "Gridpp.Props.c126_columns",
    "Gridpp.Props.c126_number",
    "Gridpp.Props.c126_refused",
    "Gridpp.Props.c126_unreadable_false",
    "Gridpp.Props.c126_malformed_false",
    "Gridpp.Props.c126_place_false",
    "Gridpp.Props.c126_negative_false",
    "Gridpp.Props.c126_last_false"
   ],
   "note": "Reading of well formed tables and what is refused are proved for all texts. That everything else is refused is false: short lines, numbers without white space, times that are no whole numbers, unknown elevations and unreadable files are accepted, and a negative time is undefined behaviour (proved with witnesses). Numbers are read exactly; rounding and overflow of floats are left out."
  },
  {
   "property": "C127",
   "status": "partial",
   "theorems": [
    "Gridpp.Props.c127_unreadable_false",
    "Gridpp.Props.c127_empty",
    "Gridpp.Props.c127_round_trip_partial"
   ],
   "note": "False whenever every time and place has parameters: for every such file and every way of writing numbers the file cannot be read again (proved). The round trip is proved for files with a gap, exact numbers and lines of bounded length."
  },
  {
   "property": "C128",
   "status": "partial",
   "theorems": [
    "Gridpp.Props.c128_line_partial",
    "Gridpp.Props.c128_example",
    "Gridpp.Props.c128_input_false",
    "Gridpp.Props.c128_lost_false",
    "Gridpp.Props.c128_downscaler_parameters_false",
    "Gridpp.Props.c128_parameters_false",
    "Gridpp.Props.c128_alias_false",
    "Gridpp.Props.c128_downscaler_false",
    "Gridpp.Props.c128_no_variable_false"
   ],
   "note": "Proved for well-formed lines where -vi is unambiguous and -p follows calibrators; the options of parameter files pile up (part of the specification); false otherwise, with witnesses."
  },
  {
   "property": "C129",
   "status": "proved",
   "theorems": [
    "Gridpp.Props.c129_ends",
    "Gridpp.Props.c129_all",
    "Gridpp.Props.c129_refused",
    "Gridpp.Props.c129_example"
   ],
   "note": "All argument lists; the schemes and files are an arbitrary environment."
  },
  {
   "property": "C130",
   "status": "partial",
   "theorems": [
    "Gridpp.Props.c130_distinct_partial",
    "Gridpp.Props.c130_same",
    "Gridpp.Props.c130_all",
    "Gridpp.Props.c130_refused",
    "Gridpp.Props.c130_swap_false",
    "Gridpp.Props.c130_equal_sign_false",
    "Gridpp.Props.c130_example"
   ],
   "note": "False when an input file is also a later output file, or the output name contains an equals sign; witnesses proved."
  },
  {
   "property": "C131",
   "status": "partial",
   "theorems": [
    "Gridpp.Props.c131_law",
    "Gridpp.Props.c131_missing",
    "Gridpp.Props.c131_grid_partial",
    "Gridpp.Props.c131_stations_partial",
    "Gridpp.Props.c131_elevation_false",
    "Gridpp.Props.c131_coordinate_false",
    "Gridpp.Props.c131_symmetry_false"
   ],
   "note": "Law proved for all scales; the use of missing metadata is false of the code, with witnesses."
  },
  {
   "property": "C132",
   "status": "partial",
   "theorems": [
    "Gridpp.Props.c132_transform",
    "Gridpp.Props.c132_none",
    "Gridpp.Props.c132_log_partial",
    "Gridpp.Props.c132_log_zero_false",
    "Gridpp.Props.c132_missing_false",
    "Gridpp.Props.c132_variance_false",
    "Gridpp.Props.c132_one_false"
   ],
   "note": "Round trips proved for positive exponents and for the logarithm on positive amounts; the other claims are false, with witnesses."
  },
  {
   "property": "C133",
   "status": "partial",
   "theorems": [
    "Gridpp.Props.c133_regular_partial",
    "Gridpp.Props.c133_irregular_partial",
    "Gridpp.Props.c133_window_false",
    "Gridpp.Props.c133_soar_false"
   ],
   "note": "Proved with the square and radius as the code has them; their symmetry and sufficiency are false, with witnesses. Distance and nearest grid point are parameters."
  },
  {
   "property": "C134",
   "status": "partial",
   "theorems": [
    "Gridpp.Props.c134_single_partial",
    "Gridpp.Props.c134_singular",
    "Gridpp.Props.c134_alone",
    "Gridpp.Props.c134_forecast",
    "Gridpp.Props.c134_smooth_false",
    "Gridpp.Props.c134_options_false",
    "Gridpp.Props.c134_variance_false"
   ],
   "note": "The analysis at a grid point is proved for all systems; the claim about the final field is false with the transform, with a witness; the matrix inverse is a lawful parameter."
  },
  {
   "property": "C135",
   "status": "partial",
   "theorems": [
    "Gridpp.Props.c135_kalman_partial",
    "Gridpp.Props.c135_parameters",
    "Gridpp.Props.c135_savediff_false"
   ],
   "note": "claim refuted for saveDiff (c135_savediff_false); otherwise proved for members valid at the stations"
  },
  {
   "property": "C136",
   "status": "partial",
   "theorems": [
    "Gridpp.Props.c136_filter_partial",
    "Gridpp.Props.c136_wrong_member"
   ],
   "note": "claim refuted for more than one station (c136_wrong_member); proved: what the filter does in general, and the claim with one station"
  },
  {
   "property": "C137",
   "status": "partial",
   "theorems": [
    "Gridpp.Props.c137_bias_partial",
    "Gridpp.Props.c137_reset_false"
   ],
   "note": "proved where stations are used; claim refuted elsewhere (c137_reset_false)"
  },
  {
   "property": "C138",
   "status": "partial",
   "theorems": [
    "Gridpp.Props.c138_radar_partial",
    "Gridpp.Props.c138_singular",
    "Gridpp.Props.c138_no_radar_false"
   ],
   "note": "proved with radar stations among those used; without them it depends on the library (c138_no_radar_false)"
  },
  {
   "property": "C139",
   "status": "partial",
   "theorems": [
    "Gridpp.Props.c139_delta_partial",
    "Gridpp.Props.c139_none",
    "Gridpp.Props.c139_missing_false",
    "Gridpp.Props.c139_one_false"
   ],
   "note": "proved for members valid at the stations; claim refuted otherwise"
  },
  {
   "property": "C140",
   "status": "partial",
   "theorems": [
    "Gridpp.Props.c140_step_partial",
    "Gridpp.Props.c140_unchanged",
    "Gridpp.Props.c140_delta_partial",
    "Gridpp.Props.c140_station",
    "Gridpp.Props.c140_members",
    "Gridpp.Props.c140_dropped_false"
   ],
   "note": "Proved for members that have values everywhere or nowhere; a member with a missing value at one grid point is not used but still changes the mean forecast at stations (c140_dropped_false)."
  },
  {
   "property": "C141",
   "status": "partial",
   "theorems": [
    "Gridpp.Props.c141_read_partial",
    "Gridpp.Props.c141_range",
    "Gridpp.Props.c141_number",
    "Gridpp.Props.c141_white",
    "Gridpp.Props.c141_empty_false",
    "Gridpp.Props.c141_zero_false",
    "Gridpp.Props.c141_malformed_false",
    "Gridpp.Props.c141_last_false",
    "Gridpp.Props.c141_same_place_false"
   ],
   "note": "c141_read_partial: full content for well-formed files. The claim is false without the hypotheses, with the counterexamples proved. Null characters in files, lines of 10000 or more characters and rounding of numbers are not modelled"
  },
  {
   "property": "C142",
   "status": "partial",
   "theorems": [
    "Gridpp.Props.c142_write_partial",
    "Gridpp.Props.c142_none",
    "Gridpp.Props.c142_read_false",
    "Gridpp.Props.c142_place_false",
    "Gridpp.Props.c142_rest_false"
   ],
   "note": "c142_write_partial: what the lines hold. False that FileText reads what it writes. How the stream shows a number is a parameter"
  },
  {
   "property": "C143",
   "status": "partial",
   "theorems": [
    "Gridpp.Props.c143_read_partial",
    "Gridpp.Props.c143_roundtrip",
    "Gridpp.Props.c143_refused",
    "Gridpp.Props.c143_number",
    "Gridpp.Props.c143_time_false",
    "Gridpp.Props.c143_unix_false",
    "Gridpp.Props.c143_white_false",
    "Gridpp.Props.c143_line_false",
    "Gridpp.Props.c143_last_false",
    "Gridpp.Props.c143_rest_false",
    "Gridpp.Props.c143_zero_false"
   ],
   "note": "c143_read_partial: full content for well-formed files and given time option. False otherwise, with the counterexamples proved"
  },
  {
   "property": "C144",
   "status": "partial",
   "theorems": [
    "Gridpp.Props.c144_write_partial",
    "Gridpp.Props.c144_stamp",
    "Gridpp.Props.c144_missing",
    "Gridpp.Props.c144_new",
    "Gridpp.Props.c144_refused",
    "Gridpp.Props.c144_times_false",
    "Gridpp.Props.c144_zero_false",
    "Gridpp.Props.c144_negative_false"
   ],
   "note": "c144_write_partial: the whole message for pressures that are missing or not negative and times from 1970 on. False otherwise, with the counterexamples proved"
  },
  {
   "property": "C145",
   "status": "partial",
   "theorems": [
    "Gridpp.Props.c145_main_partial",
    "Gridpp.Props.c145_main_refused",
    "Gridpp.Props.c145_files",
    "Gridpp.Props.c145_pair",
    "Gridpp.Props.c145_self",
    "Gridpp.Props.c145_chain",
    "Gridpp.Props.c145_shared",
    "Gridpp.Props.c145_flags",
    "Gridpp.Props.c145_run",
    "Gridpp.Props.c145_level",
    "Gridpp.Props.c145_cases",
    "Gridpp.Props.c145_shown",
    "Gridpp.Props.c145_message",
    "Gridpp.Props.c145_write",
    "Gridpp.Props.c145_shown_false",
    "Gridpp.Props.c145_write_false"
   ],
   "note": "c145_main_partial: the whole program for different files and command lines as in C128 and C130; the loops over files, variables and calibrators (c145_files, c145_pair, c145_self, c145_chain, c145_shared) for all behaviours of the schemes. False: unknown debug levels and write=true, with the counterexamples proved"
  },
  {
   "property": "C146",
   "status": "partial",
   "theorems": [
    "Gridpp.Props.c146_index",
    "Gridpp.Props.c146_grid_partial",
    "Gridpp.Props.c146_refused",
    "Gridpp.Props.c146_overflow_false"
   ],
   "note": "Claim false: a further dimension of size 2 or more overflows the array (c146_overflow_false, for all such files)."
  },
  {
   "property": "C147",
   "status": "partial",
   "theorems": [
    "Gridpp.Props.c147_read_partial",
    "Gridpp.Props.c147_nearest_partial",
    "Gridpp.Props.c147_times_false",
    "Gridpp.Props.c147_five_dims_false",
    "Gridpp.Props.c147_missing_place_false"
   ],
   "note": "Proved for at most four dimensions and places on the globe; values of the times are not used, five dimensions are undefined behaviour and missing places are taken as places (witnesses). Nearest cell only for distances that the tree separates (see C91)."
  },
  {
   "property": "C148",
   "status": "partial",
   "theorems": [
    "Gridpp.Props.c148_write",
    "Gridpp.Props.c148_round_partial",
    "Gridpp.Props.c148_without_tree",
    "Gridpp.Props.c148_first_false",
    "Gridpp.Props.c148_dim_name_false",
    "Gridpp.Props.c148_fill_false"
   ],
   "note": "write characterised; the round trip holds for parameters other than the fill value, for places on the globe; the rest is false (witnesses)."
  },
  {
   "property": "C149",
   "status": "partial",
   "theorems": [
    "Gridpp.Props.c149_read_partial",
    "Gridpp.Props.c149_level",
    "Gridpp.Props.c149_too_large",
    "Gridpp.Props.c149_time",
    "Gridpp.Props.c149_fill_false",
    "Gridpp.Props.c149_member_false"
   ],
   "note": "Proved for fill values other than -999; what the code does otherwise, for members that the variable does not have, for levels and times that do not exist is proved as well."
  },
  {
   "property": "C150",
   "status": "partial",
   "theorems": [
    "Gridpp.Props.c150_write_partial",
    "Gridpp.Props.c150_no_time",
    "Gridpp.Props.c150_late",
    "Gridpp.Props.c150_round_partial",
    "Gridpp.Props.c150_level_false",
    "Gridpp.Props.c150_fill_false",
    "Gridpp.Props.c150_missing_false"
   ],
   "note": "Proved for fill values other than -999; the round trip for numbers that are not packed into the fill value; witnesses for the false parts."
  },
  {
   "property": "C151",
   "status": "partial",
   "theorems": [
    "Gridpp.Props.c151_both",
    "Gridpp.Props.c151_one_partial",
    "Gridpp.Props.c151_error",
    "Gridpp.Props.c151_fill_false"
   ],
   "note": "Proved for two and more dimensions; for one dimension if no value is the fill value, which is not recognised there."
  },
  {
   "property": "C152",
   "status": "partial",
   "theorems": [
    "Gridpp.Props.c152_times_partial",
    "Gridpp.Props.c152_reference_partial",
    "Gridpp.Props.c152_reference_dims",
    "Gridpp.Props.c152_scalar_false",
    "Gridpp.Props.c152_many_false",
    "Gridpp.Props.c152_zero_false"
   ],
   "note": "Proved for longitudes other than zero and times with the dimension for them; what happens otherwise is proved as well."
  },
  {
   "property": "C153",
   "status": "partial",
   "theorems": [
    "Gridpp.Props.c153_write_partial",
    "Gridpp.Props.c153_round_partial",
    "Gridpp.Props.c153_dims",
    "Gridpp.Props.c153_define",
    "Gridpp.Props.c153_define_rows",
    "Gridpp.Props.c153_single_false",
    "Gridpp.Props.c153_other_false"
   ],
   "note": "Writing is proved for all variables with the dimensions of the grid; elevations that are not numbers only if the fill value is not -999. The false parts are proved as well."
  },
  {
   "property": "C154",
   "status": "partial",
   "theorems": [
    "Gridpp.Props.c154_history_partial",
    "Gridpp.Props.c154_prepend",
    "Gridpp.Props.c154_new",
    "Gridpp.Props.c154_others",
    "Gridpp.Props.c154_run_others",
    "Gridpp.Props.c154_conventions",
    "Gridpp.Props.c154_conventions_false",
    "Gridpp.Props.c154_zero_false"
   ],
   "note": "history after any number of runs for texts without the character 0 and within the limit of 100000000; other attributes unchanged; false of the code: a file without Conventions never gets any (inverted test), the old history is cut at a character 0, and a history over the limit is lost (c154_new)"
  },
  {
   "property": "C155",
   "status": "partial",
   "theorems": [
    "Gridpp.Props.c155_write_partial",
    "Gridpp.Props.c155_round_partial",
    "Gridpp.Props.c155_times",
    "Gridpp.Props.c155_missing_false",
    "Gridpp.Props.c155_variable_false",
    "Gridpp.Props.c155_reference_false",
    "Gridpp.Props.c155_point_false"
   ],
   "note": "whole of writeCore for files and forecasts that fit (OutputFits); round trip for all variables; false of the code: missing times and a missing reference time come back as the number 15*2^119, times always go to the variable time, a reference time with several values is undefined, elevations of a file without dimensions of the grid end the program"
  },
  {
   "property": "C156",
   "status": "partial",
   "theorems": [
    "Gridpp.Props.c156_reopen_partial",
    "Gridpp.Props.c156_variable_false",
    "Gridpp.Props.c156_fill_false",
    "Gridpp.Props.c156_unknown_false"
   ],
   "note": "composition of writeCore (C155) and the constructor (C152): same grid, elevations, times, reference time, members and fields; needs longitudes other than 0 (C152) and files and forecasts that fit; false of the code: elevations are read from the variable of the options but written to altitude, an elevation that is the value for missing is lost, unknown elevations do not replace known ones"
  },
  {
   "property": "C157",
   "status": "partial",
   "theorems": [
    "Gridpp.Props.c157_columns_partial",
    "Gridpp.Props.c157_narrow",
    "Gridpp.Props.c157_length_false",
    "Gridpp.Props.c157_title_false"
   ],
   "note": "all words in order in two columns, greedy line breaks, lines at most one character too long if title and words are short enough; widths, limits and indentation that are not negative; false of the code: a line can be one character longer than the limit, and a title that fills the first column runs into the message"
  },
  {
   "property": "C158",
   "status": "proved",
   "theorems": [
    "Gridpp.Props.c158_inverse",
    "Gridpp.Props.c158_missing",
    "Gridpp.Props.c158_ragged_false"
   ],
   "note": "square matrices over any ordered field; Boost's LU factorization is modelled as elimination with exchange of rows; a matrix with a short row is read beyond its end (witness)"
  },
  {
   "property": "C159",
   "status": "proved",
   "theorems": [
    "Gridpp.Props.c159_least",
    "Gridpp.Props.c159_error",
    "Gridpp.Props.c159_missing_false"
   ],
   "note": "minimum and uniqueness over all coefficients; missing values must be left out by the caller, the function uses them as numbers (witness)"
  },
  {
   "property": "C160",
   "status": "partial",
   "theorems": [
    "Gridpp.Props.c160_train_partial",
    "Gridpp.Props.c160_missing_land",
    "Gridpp.Props.c160_missing_false"
   ],
   "note": "Fails if useNN is not set and the forecast at the point with the least land is missing: -999 is used as the forecast (c160_missing_false). Partial theorem excludes that, and errors equal to -999 in the offset branch."
  },
  {
   "property": "C161",
   "status": "partial",
   "theorems": [
    "Gridpp.Props.c161_defaults_partial",
    "Gridpp.Props.c161_warning_partial",
    "Gridpp.Props.c161_required_partial",
    "Gridpp.Props.c161_names",
    "Gridpp.Props.c161_defaults_false",
    "Gridpp.Props.c161_defaults_found",
    "Gridpp.Props.c161_transform_false",
    "Gridpp.Props.c161_approx_false",
    "Gridpp.Props.c161_epsilonC_false",
    "Gridpp.Props.c161_dead_false",
    "Gridpp.Props.c161_silent_false",
    "Gridpp.Props.c161_window_false",
    "Gridpp.Props.c161_gradient_false",
    "Gridpp.Props.c161_case_defaults",
    "Gridpp.Props.c161_case_warning",
    "Gridpp.Props.c161_case_required",
    "Gridpp.Props.c161_hidden_required",
    "Gridpp.Props.c161_hidden_required_case"
   ],
   "note": "False of the code: eight defaults in the help text are not those of the code (transform=none even ends the program, approxDist=true turns the approximation off, epsilonC is replaced by epsilon), two options are never read, twelve are read but not described, two schemes never warn, length of window is not required. The partial theorems hold for all options with exactly these exceptions, each shown by a witness. One of the options that are not described must be given (pressureVariable of qnh, c161_hidden_required)."
  },
  {
   "property": "C162",
   "status": "partial",
   "theorems": [
    "Gridpp.Props.c162_gauss_value_partial",
    "Gridpp.Props.c162_gauss_order_partial",
    "Gridpp.Props.c162_gauss_train_partial",
    "Gridpp.Props.c162_no_data",
    "Gridpp.Props.c162_cold_false",
    "Gridpp.Props.c162_missing_obs_false",
    "Gridpp.Props.c162_zero_false",
    "Gridpp.Props.c162_zaga_value_partial",
    "Gridpp.Props.c162_zaga_order_partial",
    "Gridpp.Props.c162_zaga_case_partial",
    "Gridpp.Props.c162_zaga_train_partial",
    "Gridpp.Props.c162_fraction_false",
    "Gridpp.Props.c162_fraction_case",
    "Gridpp.Props.c162_no_member",
    "Gridpp.Props.c162_log_likelihood_false",
    "Gridpp.Props.c162_case_gauss",
    "Gridpp.Props.c162_case_zaga"
   ],
   "note": "Proved for means above 0 (gaussian), densities other than 0, a logit other than -999 and, for zaga, cases where all members or none are up to the threshold. False without: a mean of 0 or below makes the function constant, a missing observation is used as -999, a density of 0 counts as 1/100000, the fraction is a division of integers, logLikelihood is the logarithm of the distribution function. The simplex search of gsl and the densities of boost are parameters."
  },
  {
   "property": "C163",
   "status": "partial",
   "theorems": [
    "Gridpp.Props.c163_named",
    "Gridpp.Props.c163_detect",
    "Gridpp.Props.c163_complete",
    "Gridpp.Props.c163_sound_partial",
    "Gridpp.Props.c163_option_false",
    "Gridpp.Props.c163_text_false",
    "Gridpp.Props.c163_nothing",
    "Gridpp.Props.c163_blank",
    "Gridpp.Props.c163_case_detect",
    "Gridpp.Props.c163_case_named",
    "Gridpp.Props.c163_case_option",
    "Gridpp.Props.c163_case_blank"
   ],
   "note": "Types given by name and completeness for NetCDF files are proved. False, with proofs: files of the other types are never found (c163_text_false), the options latVar and lonVar make every NetCDF file valid and opening then ends the program (c163_option_false), a type of white space finds nothing (c163_blank). Soundness holds without these options, for the coordinates only (c163_sound_partial)."
  },
  {
   "property": "C164",
   "status": "partial",
   "theorems": [
    "Gridpp.Props.c164_grids_partial",
    "Gridpp.Props.c164_ragged_false",
    "Gridpp.Props.c164_empty_false",
    "Gridpp.Props.c164_same",
    "Gridpp.Props.c164_fake_field",
    "Gridpp.Props.c164_fake_sizes",
    "Gridpp.Props.c164_fake_false",
    "Gridpp.Props.c164_fake_fraction_false",
    "Gridpp.Props.c164_case_grids"
   ],
   "note": "Proved by induction over the settings for files with coordinates and rectangular proposals. False: ragged grids are accepted (c164_ragged_false), a file without coordinates is undefined behaviour (c164_empty_false), the file Fake is undefined behaviour for all positive sizes because of the longitude 0 (c164_fake_false), its land fractions exceed 1 (c164_fake_fraction_false)."
  },
  {
   "property": "C165",
   "status": "partial",
   "theorems": [
    "Gridpp.Props.c165_everywhere",
    "Gridpp.Props.c165_about",
    "Gridpp.Props.c165_cache",
    "Gridpp.Props.c165_times_false",
    "Gridpp.Props.c165_place_false",
    "Gridpp.Props.c165_element",
    "Gridpp.Props.c165_assign",
    "Gridpp.Props.c165_valid",
    "Gridpp.Props.c165_case"
   ],
   "note": "False for files to which more sets are added: the times are not listed and the tree is not rebuilt (witnesses). Everything else is proved. The index of an element is taken modulo 2^32; sets are shorter than 2^31."
  },
  {
   "property": "C166",
   "status": "partial",
   "theorems": [
    "Gridpp.Props.c166_files",
    "Gridpp.Props.c166_output_partial",
    "Gridpp.Props.c166_failure",
    "Gridpp.Props.c166_times",
    "Gridpp.Props.c166_lost_false",
    "Gridpp.Props.c166_case",
    "Gridpp.Props.c166_self",
    "Gridpp.Props.c166_nearest_partial",
    "Gridpp.Props.c166_bypass"
   ],
   "note": "The claim is false if some but not all leading times of the output variable are in memory (c166_lost_false); c166_files describes all cases. One file with one variable (aliased fields) is not modelled."
  },
  {
   "property": "C167",
   "status": "proved",
   "theorems": [
    "Gridpp.Props.c167_cases",
    "Gridpp.Props.c167_elsewhere",
    "Gridpp.Props.c167_outside",
    "Gridpp.Props.c167_none",
    "Gridpp.Props.c167_case"
   ],
   "note": "The method that is trained is an argument."
  },
  {
   "property": "C168",
   "status": "partial",
   "theorems": [
    "Gridpp.Props.c168_names_partial",
    "Gridpp.Props.c168_unique",
    "Gridpp.Props.c168_variance",
    "Gridpp.Props.c168_case"
   ],
   "note": "False for the variance: get_statistic has no name for it, so that no text gives Variance. Proved for all other statistics and all texts."
  },
  {
   "property": "C169",
   "status": "partial",
   "theorems": [
    "Gridpp.Props.c169_order_partial",
    "Gridpp.Props.c169_points_partial",
    "Gridpp.Props.c169_grid_full_partial",
    "Gridpp.Props.c169_grid_partial",
    "Gridpp.Props.c169_case",
    "Gridpp.Props.c169_ties"
   ],
   "note": "Proved for both functions, points and grids, if max_points is 0 or no two usable observations are equally correlated with the same output point; both calls have at least one observation, and variances of the background at the observations are not 0. Missing: ties, for which the claim is false of the code: with max_points 1 and two observations at the same distance the second in the list is used (c169_ties), with libraries that meet their requirements."
  },
  {
   "property": "C170",
   "status": "proved",
   "theorems": [
    "Gridpp.Props.c170_compose",
    "Gridpp.Props.c170_grows"
   ],
   "note": "All rectangular non-empty fields and half widths; max and min."
  },
  {
   "property": "C171",
   "status": "proved",
   "theorems": [
    "Gridpp.Props.c171_units",
    "Gridpp.Props.c171_sum",
    "Gridpp.Props.c171_std"
   ],
   "note": "All factors and offsets; the standard deviation for every field of numbers with a square root (LawfulSqrt)."
  },
  {
   "property": "C172",
   "status": "proved",
   "theorems": [
    "Gridpp.Props.c172_mirror"
   ],
   "note": "Deterministic statistics (all but the random choice) and quantiles."
  },
  {
   "property": "C173",
   "status": "proved",
   "theorems": [
    "Gridpp.Props.c173_points_full",
    "Gridpp.Props.c173_points",
    "Gridpp.Props.c173_grid_full",
    "Gridpp.Props.c173_grid"
   ],
   "note": "No assumptions on the libraries or the structure function; in the grid versions the offset of the background is the same for the whole grid."
  },
  {
   "property": "C174",
   "status": "partial",
   "theorems": [
    "Gridpp.Props.c174_points",
    "Gridpp.Props.c174_grid",
    "Gridpp.Props.c174_ebesc",
    "Gridpp.Props.c174_ebesc_grid",
    "Gridpp.Props.c174_ebe",
    "Gridpp.Props.c174_ebe_grid",
    "Gridpp.Props.c174_second_ensemble"
   ],
   "note": "Proved without hypotheses on the inputs for optimal_interpolation_ensi, ebesc and the first ensemble of ebe, for points and grids. The last sentence of the claim is false: c174_second_ensemble, because the standard deviation of the second ensemble is compared with the constant 0.0013. The variant utem is not covered."
  },
  {
   "property": "C175",
   "status": "proved",
   "theorems": [
    "Gridpp.Props.c175_nearest",
    "Gridpp.Props.c175_nearest_layers",
    "Gridpp.Props.c175_bilinear",
    "Gridpp.Props.c175_bilinear_layers",
    "Gridpp.Props.c175_simple_gradient",
    "Gridpp.Props.c175_full_gradient_points",
    "Gridpp.Props.c175_full_gradient_debug",
    "Gridpp.Props.c175_full_gradient_grid",
    "Gridpp.Props.c175_full_gradient_times",
    "Gridpp.Props.c175_bilinear_linear_only"
   ],
   "note": "Equality of results (ok, throw, abort and ub alike) for all overloads; c175_bilinear_linear_only is the witness that bilinear interpolation is not carried by a change that is not a change of units. Exact arithmetic."
  },
  {
   "property": "C176",
   "status": "partial",
   "theorems": [
    "Gridpp.Props.c176_interpolate",
    "Gridpp.Props.c176_apply_curve",
    "Gridpp.Props.c176_apply_curve_fields",
    "Gridpp.Props.c176_apply_curve_spatial",
    "Gridpp.Props.c176_quantile_mapping",
    "Gridpp.Props.c176_monotonize_partial",
    "Gridpp.Props.c176_monotonize_tolerance",
    "Gridpp.Props.c176_one_to_one_units"
   ],
   "note": "Equality of results (all outcomes) for interpolate, apply_curve and quantile_mapping_curve. False for monotonize_curve when the unit of the forecasts changes by a factor: the tolerance is 0.1 in whatever unit (c176_monotonize_tolerance); c176_monotonize_partial covers references in any unit and forecasts moved by an offset. c176_one_to_one_units shows that the conditions on the policies are needed. Exact arithmetic."
  },
  {
   "property": "C177",
   "status": "proved",
   "theorems": [
    "Gridpp.Props.c177_fill",
    "Gridpp.Props.c177_doping",
    "Gridpp.Props.c177_fill_missing",
    "Gridpp.Props.c177_smart",
    "Gridpp.Props.c177_gridding",
    "Gridpp.Props.c177_gridding_nearest",
    "Gridpp.Props.c177_sum_offset"
   ],
   "note": "Equality of results (all outcomes). The random choice is not covered: the model leaves the choice to an arbitrary function of the values. The standard deviation needs an exact square root (StatUnits). c177_sum_offset is the witness for sums in units with an offset. Exact arithmetic."
  },
  {
   "property": "C178",
   "status": "proved",
   "theorems": [
    "Gridpp.Props.c178_mirror",
    "Gridpp.Props.c178_linear",
    "Gridpp.Props.c178_second_pass",
    "Gridpp.Props.c178_not_idempotent"
   ],
   "note": "Exact arithmetic. That a second pass may fill more is c178_not_idempotent."
  },
  {
   "property": "C179",
   "status": "proved",
   "theorems": [
    "Gridpp.Props.c179_probability",
    "Gridpp.Props.c179_probability_reversed",
    "Gridpp.Props.c179_mask_consensus",
    "Gridpp.Props.c179_mask_quantile",
    "Gridpp.Props.c179_mask_reversed",
    "Gridpp.Props.c179_minmax",
    "Gridpp.Props.c179_regression",
    "Gridpp.Props.c179_search",
    "Gridpp.Props.c179_range_units"
   ],
   "note": "Statistics as in C177 (sum only without an offset, not the random choice); the regression with an exact square root. c179_range_units: min_range must be given in the unit of the base."
  },
  {
   "property": "C180",
   "status": "partial",
   "theorems": [
    "Gridpp.Props.c180_regression",
    "Gridpp.Props.c180_minmax_partial",
    "Gridpp.Props.c180_minmax_first",
    "Gridpp.Props.c180_search_partial",
    "Gridpp.Props.c180_search_first"
   ],
   "note": "Full for the regression. For MinMax and neighbourhood_search only if equal extremes (equally close cells) of a window have equal values: otherwise the first in the order of rows counts and the claim is false (witnesses c180_minmax_first, c180_search_first)."
  },
  {
   "property": "C181",
   "status": "partial",
   "theorems": [
    "Gridpp.Props.c181_units_partial",
    "Gridpp.Props.c181_reversed_partial",
    "Gridpp.Props.c181_past_partial",
    "Gridpp.Props.c181_compose",
    "Gridpp.Props.c181_sum_compose",
    "Gridpp.Props.c29_mean_reads_outside",
    "Gridpp.Props.c29_count_reads_outside"
   ],
   "note": "The composition of extremes is proved in full. The other laws exclude the mean, the count, and the sum with keep_missing, which read before the start of a vector on every array (C29). c181_sum_compose: sums do not compose."
  },
  {
   "property": "C182",
   "status": "partial",
   "theorems": [
    "Gridpp.Props.c182_units",
    "Gridpp.Props.c182_order",
    "Gridpp.Props.c182_copies",
    "Gridpp.Props.c182_exchange",
    "Gridpp.Props.c182_exchange_not",
    "Gridpp.Props.c182_direction",
    "Gridpp.Props.c182_direction_not",
    "Gridpp.Props.c182_optimal",
    "Gridpp.Props.c182_curve",
    "Gridpp.Props.c182_case_search",
    "Gridpp.Props.c182_case"
   ],
   "note": "Units, order and copies for all data. False: Kss is not symmetric in forecast and reference; a missing reference is left out but a missing forecast is a forecast of no event; Ts depends on which outcome is the event; a value on the threshold is a non-event in both directions. Brent's method is an oracle assumed to find the same place in other units."
  },
  {
   "property": "C183",
   "status": "partial",
   "theorems": [
    "Gridpp.Props.c183_score",
    "Gridpp.Props.c183_ldc_partial",
    "Gridpp.Props.c183_ldc_unit",
    "Gridpp.Props.c183_case_sort",
    "Gridpp.Props.c183_case"
   ],
   "note": "Neighbourhood scores for all inputs. The correction for all inputs whose background values stay on their side of the limits 0.01 and 0.1 and a sort that only compares; otherwise false (c183_ldc_unit), since the limits for no precipitation are absolute numbers."
  },
  {
   "property": "C184",
   "status": "partial",
   "theorems": [
    "Gridpp.Props.c184_gridding",
    "Gridpp.Props.c184_gridding_nearest",
    "Gridpp.Props.c184_score",
    "Gridpp.Props.c184_count",
    "Gridpp.Props.c184_fill",
    "Gridpp.Props.c184_case",
    "Gridpp.Props.c184_doping_order",
    "Gridpp.Props.c184_doping_partial",
    "Gridpp.Props.c184_case_doping"
   ],
   "note": "Proved for gridding, gridding_nearest, neighbourhood_score, count and fill, for all rearrangements, with reported arguments. False for doping_circle: where circles overlap the last observation wins (c184_doping_order); proved for it where observations whose circles share a cell are equal (c184_doping_partial). Assumes coordinates valid in the coordinate type searched, a rectangular input for fill of the size of the grid, and at least one output point for gridding_nearest to points."
  },
  {
   "property": "C185",
   "status": "partial",
   "theorems": [
    "Gridpp.Props.c185_count",
    "Gridpp.Props.c185_radius",
    "Gridpp.Props.c185_fill",
    "Gridpp.Props.c185_fill_twice",
    "Gridpp.Props.c185_outside_false",
    "Gridpp.Props.c185_case"
   ],
   "note": "Proved: counts add up, do not fall with the radius, fill inside can be done in parts, fill twice is fill once. False with outside=true: the second call also removes the circles of the first points (c185_outside_false). Assumes coordinates valid in the coordinate type searched, a rectangular input of the size of the grid, and as many radii as points in each part."
  },
  {
   "property": "C186",
   "status": "proved",
   "theorems": [
    "Gridpp.Props.c186_statistic",
    "Gridpp.Props.c186_statistic_range",
    "Gridpp.Props.c186_neighbourhood",
    "Gridpp.Props.c186_neighbourhood_quantile",
    "Gridpp.Props.c186_neighbourhood_range",
    "Gridpp.Props.c186_gridding",
    "Gridpp.Props.c186_gridding_range",
    "Gridpp.Props.c186_case",
    "Gridpp.Props.c186_others_false"
   ],
   "note": "In exact arithmetic. The order statistics of two arrays are compared by inserting one element at a time. Fields are rectangular and not empty; gridding with valid arguments (others are reported, C40). Sum (range) and variance (order) are not part of the claim; c186_others_false shows why."
  },
  {
   "property": "C187",
   "status": "partial",
   "theorems": [
    "Gridpp.Props.c187_window_partial",
    "Gridpp.Props.c187_window_range_partial",
    "Gridpp.Props.c187_gridding_nearest",
    "Gridpp.Props.c187_gridding_nearest_points",
    "Gridpp.Props.c187_case"
   ],
   "note": "window for minimum, median, maximum, and sum without keep_missing; gridding_nearest to grids and points in full. Missing: window mean, and sum with keep_missing, which read before the start of a vector (c29_mean_reads_outside; c187_case shows one)."
  },
  {
   "property": "C188",
   "status": "proved",
   "theorems": [
    "Gridpp.Props.c188_nearest",
    "Gridpp.Props.c188_bilinear",
    "Gridpp.Props.c188_downscaling",
    "Gridpp.Props.c188_order",
    "Gridpp.Props.c188_range",
    "Gridpp.Props.c188_simple_gradient",
    "Gridpp.Props.c188_full_gradient_points",
    "Gridpp.Props.c188_full_gradient_grid",
    "Gridpp.Props.c188_full_gradient_times",
    "Gridpp.Props.c188_case",
    "Gridpp.Props.c188_case_gradient"
   ],
   "note": "Relational theorem over all outcomes; no hypotheses on sizes, coordinates or the search tree. The range is not kept with a gradient (c188_case)."
  },
  {
   "property": "C189",
   "status": "proved",
   "theorems": [
    "Gridpp.Props.c189_fill_relation",
    "Gridpp.Props.c189_fill_missing",
    "Gridpp.Props.c189_fill_range",
    "Gridpp.Props.c189_smart_relation",
    "Gridpp.Props.c189_smart",
    "Gridpp.Props.c189_smart_range",
    "Gridpp.Props.c189_case",
    "Gridpp.Props.c189_case_range",
    "Gridpp.Props.c189_case_smart"
   ],
   "note": "Relational theorem over all outcomes, without hypotheses on sizes; the sorting of armadillo and the search tree are arbitrary parameters."
  }
 ]
}