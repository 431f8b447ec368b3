import Verif.Props.Averages
import Verif.Props.AveragesMore
import Verif.Props.Bilinear
import Verif.Props.BilinearGrid
import Verif.Props.CalcGradient
import Verif.Props.Client.Accumulate
import Verif.Props.Client.Bct
import Verif.Props.Client.BilinearCell
import Verif.Props.Client.BilinearGrid
import Verif.Props.Client.Coastal
import Verif.Props.Client.CoastalTrain
import Verif.Props.Client.Dates
import Verif.Props.Client.Descriptions
import Verif.Props.Client.DiagnoseHumidity
import Verif.Props.Client.DiagnoseWind
import Verif.Props.Client.DownscaleFile
import Verif.Props.Client.Driver
import Verif.Props.Client.Field
import Verif.Props.Client.FieldStore
import Verif.Props.Client.FileFake
import Verif.Props.Client.FileKind
import Verif.Props.Client.FileNetcdf
import Verif.Props.Client.FileNetcdfAltitude
import Verif.Props.Client.FileNetcdfAttributes
import Verif.Props.Client.FileNetcdfCore
import Verif.Props.Client.FileNetcdfGrid
import Verif.Props.Client.FileNetcdfOpen
import Verif.Props.Client.FileNetcdfReopen
import Verif.Props.Client.FileNetcdfWrite
import Verif.Props.Client.FileNorcom
import Verif.Props.Client.FilePoint
import Verif.Props.Client.FileText
import Verif.Props.Client.FileTextWrite
import Verif.Props.Client.Gaussian
import Verif.Props.Client.Gradient
import Verif.Props.Client.GradientBilinear
import Verif.Props.Client.Grid
import Verif.Props.Client.Interp
import Verif.Props.Client.Inverse
import Verif.Props.Client.KDTree
import Verif.Props.Client.Kriging
import Verif.Props.Client.KrigingCovar
import Verif.Props.Client.KrigingCross
import Verif.Props.Client.KrigingInverse
import Verif.Props.Client.KrigingTrain
import Verif.Props.Client.LeastSquares
import Verif.Props.Client.Likelihood
import Verif.Props.Client.NearestDownscaler
import Verif.Props.Client.Neighbourhood
import Verif.Props.Client.Neighbours
import Verif.Props.Client.NetcdfGrid
import Verif.Props.Client.OiDelta
import Verif.Props.Client.OiEnsemble
import Verif.Props.Client.OiRadar
import Verif.Props.Client.OiRho
import Verif.Props.Client.OiSingle
import Verif.Props.Client.OiStations
import Verif.Props.Client.OiTime
import Verif.Props.Client.OiTransform
import Verif.Props.Client.Options
import Verif.Props.Client.ParameterFile
import Verif.Props.Client.ParameterNetcdf
import Verif.Props.Client.ParameterNetcdfWrite
import Verif.Props.Client.ParameterSimple
import Verif.Props.Client.ParameterText
import Verif.Props.Client.ParameterTextWrite
import Verif.Props.Client.Places
import Verif.Props.Client.Pointwise
import Verif.Props.Client.Qq
import Verif.Props.Client.Regression
import Verif.Props.Client.Schemes
import Verif.Props.Client.Setup
import Verif.Props.Client.SetupAll
import Verif.Props.Client.SetupFiles
import Verif.Props.Client.Shuffle
import Verif.Props.Client.Sort
import Verif.Props.Client.Stat
import Verif.Props.Client.Stencil
import Verif.Props.Client.TrainFields
import Verif.Props.Client.Variable
import Verif.Props.Client.WindDirection
import Verif.Props.Client.Window
import Verif.Props.Client.Zaga
import Verif.Props.Client.ZagaCore
import Verif.Props.Client.ZagaPop
import Verif.Props.CorrPoints
import Verif.Props.Curve
import Verif.Props.CurveUnits
import Verif.Props.Distance
import Verif.Props.Distribution
import Verif.Props.DownscalingOrder
import Verif.Props.DownscalingUnits
import Verif.Props.Elementwise
import Verif.Props.Ensi
import Verif.Props.EnsiCases
import Verif.Props.EnsiClamp
import Verif.Props.EnsiGrid
import Verif.Props.EnsiKalman
import Verif.Props.EnsiKalmanCases
import Verif.Props.EnsiMember
import Verif.Props.EnsiMemberGrid
import Verif.Props.EnsiMulti
import Verif.Props.EnsiUnits
import Verif.Props.EnsiUnitsGrid
import Verif.Props.EnsiUtem
import Verif.Props.EnsiUtemCases
import Verif.Props.EvenQuantiles
import Verif.Props.Exceptions
import Verif.Props.ExceptionsDownscale
import Verif.Props.ExceptionsEnsemble
import Verif.Props.ExceptionsEnsembleGrid
import Verif.Props.ExceptionsGridding
import Verif.Props.ExceptionsGrids
import Verif.Props.ExceptionsMore
import Verif.Props.Fill
import Verif.Props.FillLaws
import Verif.Props.FillOrder
import Verif.Props.FillUnits
import Verif.Props.FullGradient
import Verif.Props.FullGradientOrder
import Verif.Props.FullGradientUnits
import Verif.Props.Geo
import Verif.Props.Gradient
import Verif.Props.GradientLaws
import Verif.Props.Grid
import Verif.Props.Gridding
import Verif.Props.Humidity
import Verif.Props.Interp
import Verif.Props.LocalDistribution
import Verif.Props.LocalUnits
import Verif.Props.Monotonize
import Verif.Props.Names
import Verif.Props.Nearest
import Verif.Props.Neighbourhood
import Verif.Props.NeighbourhoodLaws
import Verif.Props.NeighbourhoodScore
import Verif.Props.OI
import Verif.Props.OICases
import Verif.Props.OIGrid
import Verif.Props.OIOrder
import Verif.Props.OIUnits
import Verif.Props.Omp
import Verif.Props.Optimizer
import Verif.Props.PointOrder
import Verif.Props.PointUnion
import Verif.Props.Pressure
import Verif.Props.Probability
import Verif.Props.ProbabilityUnits
import Verif.Props.QuantileFast
import Verif.Props.Rectangle
import Verif.Props.Score
import Verif.Props.ScoreLaws
import Verif.Props.SeaLevel
import Verif.Props.Search
import Verif.Props.SearchLaws
import Verif.Props.Smart
import Verif.Props.Stats
import Verif.Props.Structure
import Verif.Props.StructureVec
import Verif.Props.Transform
import Verif.Props.Wind
import Verif.Props.Window
import Verif.Props.WindowLaws

/-! Axioms each property theorem depends on (at most propext, Classical.choice, Quot.sound). -/

#print axioms Gridpp.Props.c01_only_valid_multiset
#print axioms Gridpp.Props.c01_missing_iff
#print axioms Gridpp.Props.c02_mean_sum_count_min_max
#print axioms Gridpp.Props.c03_variance
#print axioms Gridpp.Props.c04_throws_iff
#print axioms Gridpp.Props.c04_missing
#print axioms Gridpp.Props.c04_value
#print axioms Gridpp.Props.c04_mono
#print axioms Gridpp.Props.c05_even_quantiles
#print axioms Gridpp.Props.c05_small_num
#print axioms Gridpp.Props.c06_no_duplicates_partial
#print axioms Gridpp.Props.c06_duplicates_counterexample
#print axioms Gridpp.Props.c07_interpolate
#print axioms Gridpp.Props.c07_mono
#print axioms Gridpp.Props.c08_contract
#print axioms Gridpp.Props.c08_vec_contract
#print axioms Gridpp.Props.c09_ties
#print axioms Gridpp.Props.c10_parallelogram
#print axioms Gridpp.Props.c10_halfplanes
#print axioms Gridpp.Props.c11_points
#print axioms Gridpp.Props.c11_grid
#print axioms Gridpp.Props.c11_grid_empty
#print axioms Gridpp.Props.c11_kdtree_empty_reads_outside
#print axioms Gridpp.Props.convert_spec
#print axioms Gridpp.Props.c12_neighbours_partial
#print axioms Gridpp.Props.c12_strict_partial
#print axioms Gridpp.Props.c12_boundary_counterexample
#print axioms Gridpp.Props.c13_agree
#print axioms Gridpp.Props.c14_closest
#print axioms Gridpp.Props.c15_grid
#print axioms Gridpp.Props.c15_bijection
#print axioms Gridpp.Props.c15_flatten
#print axioms Gridpp.Props.c15_get_point
#print axioms Gridpp.Props.c15_queries
#print axioms Gridpp.Props.c16_box
#print axioms Gridpp.Props.c16_invalid
#print axioms Gridpp.Props.c17_cartesian_counterexample
#print axioms Gridpp.Props.c17_cartesian_partial
#print axioms Gridpp.Props.c18_copy_partial
#print axioms Gridpp.Props.c18_cartesian_counterexample
#print axioms Gridpp.Props.c19_subset_partial
#print axioms Gridpp.Props.c19_subset_throws
#print axioms Gridpp.Props.c19_in_domain_partial
#print axioms Gridpp.Props.c19_cartesian_counterexample
#print axioms Gridpp.Props.c20_grid_grid
#print axioms Gridpp.Props.c20_grid_grid_time
#print axioms Gridpp.Props.c20_points_grid
#print axioms Gridpp.Props.c20_points_grid_time
#print axioms Gridpp.Props.c20_grid_points
#print axioms Gridpp.Props.c20_grid_points_time
#print axioms Gridpp.Props.c20_points_points
#print axioms Gridpp.Props.c20_points_points_time
#print axioms Gridpp.Props.c20_throws_partial
#print axioms Gridpp.Props.c20_empty
#print axioms Gridpp.Props.c20_takes_self
#print axioms Gridpp.Props.c20_identity
#print axioms Gridpp.Props.c20_identity_points
#print axioms Gridpp.Props.c20_empty_values_counterexample
#print axioms Gridpp.Props.c20_empty_output_reads_outside
#print axioms Gridpp.Props.c21_sum_mean_count
#print axioms Gridpp.Props.square_spec
#print axioms Gridpp.Props.c22_min_max
#print axioms Gridpp.Props.c23_variance_std
#print axioms Gridpp.Props.c24_contract
#print axioms Gridpp.Props.c24_zero
#print axioms Gridpp.Props.c25_not_pooled
#print axioms Gridpp.Props.c25_pooled_partial
#print axioms Gridpp.Props.c26_fixed_level_partial
#print axioms Gridpp.Props.c26_bounds_any_schedule
#print axioms Gridpp.Props.c26_schedule_dependent
#print axioms Gridpp.Props.c27_fast_quantile
#print axioms Gridpp.Props.c27_fast_quantile_ensemble
#print axioms Gridpp.Props.c27_ensemble_not_pooled
#print axioms Gridpp.Props.c27_thresholds
#print axioms Gridpp.Props.c28_quantile
#print axioms Gridpp.Props.c28_invalid_level
#print axioms Gridpp.Props.c29_window_partial
#print axioms Gridpp.Props.c29_inner_partial
#print axioms Gridpp.Props.c29_mean_reads_outside
#print axioms Gridpp.Props.c29_count_reads_outside
#print axioms Gridpp.Props.c29_contract
#print axioms Gridpp.Props.mem_windowAt
#print axioms Gridpp.Props.c30_window_sum
#print axioms Gridpp.Props.continuesWith_existsUnique
#print axioms Gridpp.Props.c31_inside
#print axioms Gridpp.Props.c31_below
#print axioms Gridpp.Props.c31_above
#print axioms Gridpp.Props.c31_unchanged
#print axioms Gridpp.Props.c31_throws
#print axioms Gridpp.Props.c31_other_policy
#print axioms Gridpp.Props.c31_vec
#print axioms Gridpp.Props.c31_repeated_end
#print axioms Gridpp.Props.continuesWith_nonneg
#print axioms Gridpp.Props.c32_monotone
#print axioms Gridpp.Props.c32_unchanged_breaks_order
#print axioms Gridpp.Props.mem_finitePairs
#print axioms Gridpp.Props.c33_separated_subsequence
#print axioms Gridpp.Props.c33_identity
#print axioms Gridpp.Props.c33_idempotent
#print axioms Gridpp.Props.c33_can_be_empty
#print axioms Gridpp.Props.c34_all_missing_reads_outside
#print axioms Gridpp.Props.c34_defined_partial
#print axioms Gridpp.Props.c35_sorted
#print axioms Gridpp.Props.quantileMappingCurve_reads
#print axioms Gridpp.Props.c35_quantiles_partial
#print axioms Gridpp.Props.c35_unsorted_counterexample
#print axioms Gridpp.Props.c35_contract
#print axioms Gridpp.Props.c36_fill_missing
#print axioms Gridpp.Props.c36_between
#print axioms Gridpp.Props.c37_counterexample
#print axioms Gridpp.Props.c37_partial
#print axioms Gridpp.Props.c38_fill
#print axioms Gridpp.Props.c38_throws
#print axioms Gridpp.Props.c39_circle
#print axioms Gridpp.Props.c39_square
#print axioms Gridpp.Props.c39_throws
#print axioms Gridpp.Props.elevNear_spec
#print axioms Gridpp.Props.c40_grid
#print axioms Gridpp.Props.c40_points
#print axioms Gridpp.Props.c40_throws
#print axioms Gridpp.Props.c41_grid
#print axioms Gridpp.Props.c41_points
#print axioms Gridpp.Props.c41_counts
#print axioms Gridpp.Props.c41_throws
#print axioms Gridpp.Props.c42_count
#print axioms Gridpp.Props.c42_distance
#print axioms Gridpp.Props.c43_convex
#print axioms Gridpp.Props.c43_between
#print axioms Gridpp.Props.c43_location
#print axioms Gridpp.Props.c43_grid
#print axioms Gridpp.Props.c43_points
#print axioms Gridpp.Props.c43_times
#print axioms Gridpp.Props.c43_parallelogram
#print axioms Gridpp.Props.c43_general
#print axioms Gridpp.Props.c43_general_negative_partial
#print axioms Gridpp.Props.c43_corners_affine
#print axioms Gridpp.Props.c43_corner_counterexample
#print axioms Gridpp.Props.c44_grid_partial
#print axioms Gridpp.Props.c44_points_partial
#print axioms Gridpp.Props.c44_outside
#print axioms Gridpp.Props.c44_missing
#print axioms Gridpp.Props.c44_size
#print axioms Gridpp.Props.c44_empty_values_counterexample
#print axioms Gridpp.Props.c44_cartesian_counterexample
#print axioms Gridpp.Props.c45_plain
#print axioms Gridpp.Props.c45_grid
#print axioms Gridpp.Props.c45_points
#print axioms Gridpp.Props.c45_grid_times
#print axioms Gridpp.Props.c45_points_times
#print axioms Gridpp.Props.c45_missing_elevation
#print axioms Gridpp.Props.c46_grid
#print axioms Gridpp.Props.c46_points
#print axioms Gridpp.Props.c46_grid_times
#print axioms Gridpp.Props.c46_points_times
#print axioms Gridpp.Props.c46_plain
#print axioms Gridpp.Props.c46_zero_grid
#print axioms Gridpp.Props.c46_nearest_total
#print axioms Gridpp.Props.c46_size
#print axioms Gridpp.Props.c46_debug_partial
#print axioms Gridpp.Props.c46_debug_reads_outside
#print axioms Gridpp.Props.c46_debug_counterexample
#print axioms Gridpp.Props.c46_times_counterexample
#print axioms Gridpp.Props.c47_no_observations
#print axioms Gridpp.Props.c47_sizes
#print axioms Gridpp.Props.c47_unaffected
#print axioms Gridpp.Props.c48_analysis
#print axioms Gridpp.Props.c49_limited_partial
#print axioms Gridpp.Props.c49_analysis_partial
#print axioms Gridpp.Props.c49_counterexample
#print axioms Gridpp.Props.c50_grid
#print axioms Gridpp.Props.c50_grid_full_partial
#print axioms Gridpp.Props.c50_sizes
#print axioms Gridpp.Props.c50_empty_reads_outside
#print axioms Gridpp.Props.c50_no_observations_reads_outside
#print axioms Gridpp.Props.c50_variance_reads_outside
#print axioms Gridpp.Props.c50_points_reads_outside
#print axioms Gridpp.Props.c51_outcome
#print axioms Gridpp.Props.c51_one
#print axioms Gridpp.Props.c51_simple
#print axioms Gridpp.Props.c51_correlations
#print axioms Gridpp.Props.c51_variance_partial
#print axioms Gridpp.Props.c51_variance_counterexample
#print axioms Gridpp.Props.c52_ensi
#print axioms Gridpp.Props.c52_ensi_grid
#print axioms Gridpp.Props.c52_ebesc
#print axioms Gridpp.Props.c52_ebesc_gap
#print axioms Gridpp.Props.c52_ebesc_grid
#print axioms Gridpp.Props.c52_ebesc_grid_gap
#print axioms Gridpp.Props.c52_ebe_partial
#print axioms Gridpp.Props.c52_ebe_gap
#print axioms Gridpp.Props.c52_ebe_out_of_range
#print axioms Gridpp.Props.c52_ebe_grid_partial
#print axioms Gridpp.Props.c52_ebe_grid_out_of_range
#print axioms Gridpp.Props.c52_utem_partial
#print axioms Gridpp.Props.c52_utem_out_of_range
#print axioms Gridpp.Props.c52_utem_grid_partial
#print axioms Gridpp.Props.c52_utem_grid_out_of_range
#print axioms Gridpp.Props.c53_ts
#print axioms Gridpp.Props.c53_pc
#print axioms Gridpp.Props.c53_kss
#print axioms Gridpp.Props.c53_ets
#print axioms Gridpp.Props.c53_hss
#print axioms Gridpp.Props.c53_bias
#print axioms Gridpp.Props.c53_perfect
#print axioms Gridpp.Props.c53_unknown
#print axioms Gridpp.Props.c54_counts
#print axioms Gridpp.Props.c54_no_threshold
#print axioms Gridpp.Props.c54_reads_outside
#print axioms Gridpp.Props.c54_one_threshold
#print axioms Gridpp.Props.c55_symmetric_partial
#print axioms Gridpp.Props.c55_autoregressive_partial
#print axioms Gridpp.Props.c55_cressman_partial
#print axioms Gridpp.Props.c55_value
#print axioms Gridpp.Props.c55_default_self
#print axioms Gridpp.Props.c55_soar_counterexample
#print axioms Gridpp.Props.c55_toar_counterexample
#print axioms Gridpp.Props.c55_cressman_counterexample
#print axioms Gridpp.Props.c55_linear_counterexample
#print axioms Gridpp.Props.c55_hmax_counterexample
#print axioms Gridpp.Props.c56_zero_partial
#print axioms Gridpp.Props.c56_monotone_partial
#print axioms Gridpp.Props.c56_cressman_monotone_partial
#print axioms Gridpp.Props.c56_hmax
#print axioms Gridpp.Props.c56_cressman_counterexample
#print axioms Gridpp.Props.c57_vector_partial
#print axioms Gridpp.Props.c57_background_partial
#print axioms Gridpp.Props.c57_clone
#print axioms Gridpp.Props.c57_composite
#print axioms Gridpp.Props.c57_refuse
#print axioms Gridpp.Props.c57_crossval
#print axioms Gridpp.Props.c57_multiple
#print axioms Gridpp.Props.c57_built
#print axioms Gridpp.Props.c57_counterexample
#print axioms Gridpp.Props.c58_roundtrip_partial
#print axioms Gridpp.Props.c58_negative_parameter
#print axioms Gridpp.Props.c58_missing
#print axioms Gridpp.Props.c58_below
#print axioms Gridpp.Props.c58_increasing
#print axioms Gridpp.Props.c58_vec
#print axioms Gridpp.Props.c58_vec2
#print axioms Gridpp.Props.c58_vec3
#print axioms Gridpp.Props.c58_constructed
#print axioms Gridpp.Props.c58_gamma_throws
#print axioms Gridpp.Props.c59_table
#print axioms Gridpp.Props.c59_relative_humidity
#print axioms Gridpp.Props.c59_humidity_increasing
#print axioms Gridpp.Props.c59_humidity_missing
#print axioms Gridpp.Props.c59_dewpoint
#print axioms Gridpp.Props.c59_dewpoint_missing
#print axioms Gridpp.Props.c59_dry_air
#print axioms Gridpp.Props.c59_wetbulb_missing
#print axioms Gridpp.Props.c59_wetbulb_between
#print axioms Gridpp.Props.c68_relative_humidity
#print axioms Gridpp.Props.c68_dewpoint
#print axioms Gridpp.Props.c68_wetbulb
#print axioms Gridpp.Props.c68_total
#print axioms Gridpp.Props.c60_identity
#print axioms Gridpp.Props.c60_zero_temperature
#print axioms Gridpp.Props.c60_composition
#print axioms Gridpp.Props.c60_proportional
#print axioms Gridpp.Props.c60_decreasing
#print axioms Gridpp.Props.c60_missing
#print axioms Gridpp.Props.c60_qnh
#print axioms Gridpp.Props.c60_qnh_missing
#print axioms Gridpp.Props.c60_slp_dewpoint
#print axioms Gridpp.Props.c60_slp_humidity
#print axioms Gridpp.Props.c60_slp_dry
#print axioms Gridpp.Props.c60_slp_throws
#print axioms Gridpp.Props.c61_speed
#print axioms Gridpp.Props.c61_missing
#print axioms Gridpp.Props.c61_range
#print axioms Gridpp.Props.c61_polar_partial
#print axioms Gridpp.Props.c61_determined_exact
#print axioms Gridpp.Props.c61_ambiguous
#print axioms Gridpp.Props.c62_probability
#print axioms Gridpp.Props.c62_range
#print axioms Gridpp.Props.c62_complement
#print axioms Gridpp.Props.c62_missing_threshold
#print axioms Gridpp.Props.c62_unknown_operator
#print axioms Gridpp.Props.c62_unchecked
#print axioms Gridpp.Props.c62_consensus
#print axioms Gridpp.Props.c62_quantile
#print axioms Gridpp.Props.c62_unknown_statistic
#print axioms Gridpp.Props.c63_correction_partial
#print axioms Gridpp.Props.c63_one_time
#print axioms Gridpp.Props.c63_throws
#print axioms Gridpp.Props.c63_correlations
#print axioms Gridpp.Props.c63_not_clamped
#print axioms Gridpp.Props.c63_range_reversed
#print axioms Gridpp.Props.c63_range_above
#print axioms Gridpp.Props.c63_value_lost
#print axioms Gridpp.Props.c63_empty_background
#print axioms Gridpp.Props.c63_unchecked
#print axioms Gridpp.Props.c64_search
#print axioms Gridpp.Props.c64_origin
#print axioms Gridpp.Props.c64_closest
#print axioms Gridpp.Props.c64_throws
#print axioms Gridpp.Props.c64_unchecked
#print axioms Gridpp.Props.c65_throws
#print axioms Gridpp.Props.c65_minmax
#print axioms Gridpp.Props.c65_regression
#print axioms Gridpp.Props.c65_regression_linear
#print axioms Gridpp.Props.c65_minmax_linear
#print axioms Gridpp.Props.c65_regression_finite
#print axioms Gridpp.Props.c65_minmax_finite_partial
#print axioms Gridpp.Props.c65_other
#print axioms Gridpp.Props.c65_not_finite
#print axioms Gridpp.Props.c65_ragged
#print axioms Gridpp.Props.c66_disjoint_partial
#print axioms Gridpp.Props.c66_for_loop
#print axioms Gridpp.Props.c66_replicated_loop
#print axioms Gridpp.Props.c66_quantile_fast_counterexample
#print axioms Gridpp.Props.c67_parallel
#print axioms Gridpp.Props.c67_loop
#print axioms Gridpp.Props.c67_window_raises
#print axioms Gridpp.Props.c67_window_terminates
#print axioms Gridpp.Props.c67_neighbourhood_raises
#print axioms Gridpp.Props.c67_neighbourhood_terminates
#print axioms Gridpp.Props.c67_apply_curve
#print axioms Gridpp.Props.c67_sea_level_pressure
#print axioms Gridpp.Props.c67_gridding
#print axioms Gridpp.Props.c67_downscaling_partial
#print axioms Gridpp.Props.c67_score_partial
#print axioms Gridpp.Props.c67_constructors_partial
#print axioms Gridpp.Props.c67_vectors
#print axioms Gridpp.Props.c67_curves
#print axioms Gridpp.Props.c67_search
#print axioms Gridpp.Props.c67_calc_gradient
#print axioms Gridpp.Props.c67_quantile_fast
#print axioms Gridpp.Props.c67_points
#print axioms Gridpp.Props.c67_distance
#print axioms Gridpp.Props.c67_gridding_raises
#print axioms Gridpp.Props.c67_fill
#print axioms Gridpp.Props.c67_downscaling
#print axioms Gridpp.Props.c67_nearest_terminates
#print axioms Gridpp.Props.c67_oi
#print axioms Gridpp.Props.c67_oi_grid
#print axioms Gridpp.Props.c67_gamma_inv
#print axioms Gridpp.Props.c67_local_distribution
#print axioms Gridpp.Props.c67_nearest_points
#print axioms Gridpp.Props.c67_downscaling_times
#print axioms Gridpp.Props.c67_simple_gradient
#print axioms Gridpp.Props.c67_full_gradient_grid
#print axioms Gridpp.Props.c67_full_gradient_points
#print axioms Gridpp.Props.c67_gridding_nearest_grid
#print axioms Gridpp.Props.c67_gridding_nearest_points
#print axioms Gridpp.Props.c67_neighbourhood_score
#print axioms Gridpp.Props.c67_gamma_transform
#print axioms Gridpp.Props.c67_ensi
#print axioms Gridpp.Props.c67_ebesc
#print axioms Gridpp.Props.c67_ebe
#print axioms Gridpp.Props.c67_utem
#print axioms Gridpp.Props.c67_ensi_grid
#print axioms Gridpp.Props.c67_ebesc_grid
#print axioms Gridpp.Props.c67_ebe_grid
#print axioms Gridpp.Props.c67_utem_grid
#print axioms Gridpp.Props.c67_full_gradient_debug
#print axioms Gridpp.Props.c67_metric_optimizer
#print axioms Gridpp.Props.c67_case_more
#print axioms Gridpp.Props.c67_case_grids
#print axioms Gridpp.Props.c67_case_fill
#print axioms Gridpp.Props.c67_case_ensemble
#print axioms Gridpp.Props.c67_case_gradient
#print axioms Gridpp.Props.c67_case_gridding_nearest
#print axioms Gridpp.Props.c67_case_ensemble_grid
#print axioms Gridpp.Props.c67_case_debug
#print axioms Gridpp.Props.c68_pressure
#print axioms Gridpp.Props.c68_sea_level_pressure
#print axioms Gridpp.Props.c68_qnh
#print axioms Gridpp.Props.c68_wind_speed
#print axioms Gridpp.Props.c68_wind_direction
#print axioms Gridpp.Props.c68_interpolate
#print axioms Gridpp.Props.c68_apply_curve
#print axioms Gridpp.Props.c68_apply_curve_field
#print axioms Gridpp.Props.c68_apply_curve_spatial_partial
#print axioms Gridpp.Props.c68_apply_curve_spatial_throws
#print axioms Gridpp.Props.c68_apply_curve_spatial_unchecked
#print axioms Gridpp.Props.c69_staticcorr
#print axioms Gridpp.Props.c69_sparse
#print axioms Gridpp.Props.c69_throws
#print axioms Gridpp.Props.c70_smart_partial
#print axioms Gridpp.Props.c70_reads_outside
#print axioms Gridpp.Props.c70_empty_case
#print axioms Gridpp.Props.c70_unchecked
#print axioms Gridpp.Props.c70_correlations
#print axioms Gridpp.Props.c71_random_choice
#print axioms Gridpp.Props.c71_refused
#print axioms Gridpp.Props.c72_general
#print axioms Gridpp.Props.c72_cartesian
#print axioms Gridpp.Props.c72_geodetic
#print axioms Gridpp.Props.c72_order
#print axioms Gridpp.Props.c73_partial
#print axioms Gridpp.Props.c73_location
#print axioms Gridpp.Props.c73_grid_partial
#print axioms Gridpp.Props.c73_parallel_rows_abort
#print axioms Gridpp.Props.c73_small_cell_throws
#print axioms Gridpp.Props.c73_trapezoid_abort
#print axioms Gridpp.Props.c73_abort_counterexample
#print axioms Gridpp.Props.c74_threshold_partial
#print axioms Gridpp.Props.c74_curve
#print axioms Gridpp.Props.c74_sizes
#print axioms Gridpp.Props.c74_all_missing
#print axioms Gridpp.Props.c74_boundary_kept
#print axioms Gridpp.Props.c74_infinite
#print axioms Gridpp.Props.c74_case_missing
#print axioms Gridpp.Props.c74_result
#print axioms Gridpp.Props.c74_case_kept
#print axioms Gridpp.Props.c75_neighbourhood_score
#print axioms Gridpp.Props.c75_throws_partial
#print axioms Gridpp.Props.c75_unknown_metric
#print axioms Gridpp.Props.c75_empty_forecast
#print axioms Gridpp.Props.c76_ensi
#print axioms Gridpp.Props.c76_ensi_grid
#print axioms Gridpp.Props.c77_ensi_partial
#print axioms Gridpp.Props.c77_ensi_grid_partial
#print axioms Gridpp.Props.c77_wrong_member
#print axioms Gridpp.Props.c78_ebesc
#print axioms Gridpp.Props.c78_ebesc_grid
#print axioms Gridpp.Props.c79_ebe_partial
#print axioms Gridpp.Props.c79_ebe_grid_partial
#print axioms Gridpp.Props.c79_not_correlation
#print axioms Gridpp.Props.c80_high
#print axioms Gridpp.Props.c80_high_monotone
#print axioms Gridpp.Props.c80_low_dry
#print axioms Gridpp.Props.c80_low_dewpoint
#print axioms Gridpp.Props.c80_low_humidity
#print axioms Gridpp.Props.c80_jump
#print axioms Gridpp.Props.c81_utem_partial
#print axioms Gridpp.Props.c81_utem_grid_partial
#print axioms Gridpp.Props.c81_utem_filter_partial
#print axioms Gridpp.Props.c81_utem_filter_grid_partial
#print axioms Gridpp.Props.c81_collapse
#print axioms Gridpp.Props.c81_collapse_wrong
#print axioms Gridpp.Props.c81_not_correlation
#print axioms Gridpp.Props.c82_rejects
#print axioms Gridpp.Props.c82_quantile_partial
#print axioms Gridpp.Props.c82_level_one
#print axioms Gridpp.Props.c82_short
#print axioms Gridpp.Props.c83_thresholds
#print axioms Gridpp.Props.c83_cases
#print axioms Gridpp.Props.c84_new
#print axioms Gridpp.Props.c84_access
#print axioms Gridpp.Props.c84_members
#print axioms Gridpp.Props.c84_equal_partial
#print axioms Gridpp.Props.c84_shape_ignored
#print axioms Gridpp.Props.c85_accumulate_partial
#print axioms Gridpp.Props.c85_accumulate_nonneg
#print axioms Gridpp.Props.c85_collision
#print axioms Gridpp.Props.c85_deaccumulate
#print axioms Gridpp.Props.c85_negative_window
#print axioms Gridpp.Props.c85_inverse
#print axioms Gridpp.Props.c86_shuffle
#print axioms Gridpp.Props.c86_unchanged
#print axioms Gridpp.Props.c87_sort
#print axioms Gridpp.Props.c87_nan
#print axioms Gridpp.Props.c87_no_members
#print axioms Gridpp.Props.c88_qc_partial
#print axioms Gridpp.Props.c88_qc_order
#print axioms Gridpp.Props.c88_cloud
#print axioms Gridpp.Props.c88_phase
#print axioms Gridpp.Props.c88_threshold
#print axioms Gridpp.Props.firstBelow_unique
#print axioms Gridpp.Props.c89_value
#print axioms Gridpp.Props.c89_missing
#print axioms Gridpp.Props.c89_bad_level
#print axioms Gridpp.Props.c89_ambiguous
#print axioms Gridpp.Props.statOf_unique
#print axioms Gridpp.Props.c90_window
#print axioms Gridpp.Props.c90_refused
#print axioms Gridpp.Props.c91_nearest_partial
#print axioms Gridpp.Props.c91_grid_partial
#print axioms Gridpp.Props.c91_refused
#print axioms Gridpp.Props.c91_latitude
#print axioms Gridpp.Props.c91_sphere_false
#print axioms Gridpp.Props.c92_brute
#print axioms Gridpp.Props.c92_brute_missing
#print axioms Gridpp.Props.c92_brute_grid_partial
#print axioms Gridpp.Props.c92_tree_grid_partial
#print axioms Gridpp.Props.c92_same_grid
#print axioms Gridpp.Props.c92_scan_not_tree
#print axioms Gridpp.Props.c93_field
#print axioms Gridpp.Props.c93_downscale_partial
#print axioms Gridpp.Props.c93_times
#print axioms Gridpp.Props.c93_members
#print axioms Gridpp.Props.c93_vec
#print axioms Gridpp.Props.c93_vec_missing_false
#print axioms Gridpp.Props.c94_lats
#print axioms Gridpp.Props.c94_lons_partial
#print axioms Gridpp.Props.c94_zero_false
#print axioms Gridpp.Props.c94_lats_range
#print axioms Gridpp.Props.c94_lons_range
#print axioms Gridpp.Props.c94_size
#print axioms Gridpp.Props.c95_tags
#print axioms Gridpp.Props.c95_tree_partial
#print axioms Gridpp.Props.c95_any
#print axioms Gridpp.Props.c95_answers
#print axioms Gridpp.Props.c95_nearest_partial
#print axioms Gridpp.Props.c95_shared_false
#print axioms Gridpp.Props.c96_field
#print axioms Gridpp.Props.c96_missing_false
#print axioms Gridpp.Props.c96_downscale_partial
#print axioms Gridpp.Props.c96_falls
#print axioms Gridpp.Props.c96_back
#print axioms Gridpp.Props.c97_field
#print axioms Gridpp.Props.c97_upscale_partial
#print axioms Gridpp.Props.c98_points
#print axioms Gridpp.Props.c98_nearest
#print axioms Gridpp.Props.c98_missing_false
#print axioms Gridpp.Props.c98_value
#print axioms Gridpp.Props.c98_downscale_partial
#print axioms Gridpp.Props.c99_gradient_partial
#print axioms Gridpp.Props.c99_lapse
#print axioms Gridpp.Props.c99_island_false
#print axioms Gridpp.Props.c100_gradient_partial
#print axioms Gridpp.Props.c100_order_false
#print axioms Gridpp.Props.c100_sea_false
#print axioms Gridpp.Props.c101_field_partial
#print axioms Gridpp.Props.c101_downscale_partial
#print axioms Gridpp.Props.c101_bilinear_partial
#print axioms Gridpp.Props.c101_bilinear_limit
#print axioms Gridpp.Props.c101_same
#print axioms Gridpp.Props.c101_domain
#print axioms Gridpp.Props.c101_limit_false
#print axioms Gridpp.Props.c101_case_bilinear
#print axioms Gridpp.Props.c101_case_options
#print axioms Gridpp.Props.c102_split
#print axioms Gridpp.Props.c102_content
#print axioms Gridpp.Props.c103_add
#print axioms Gridpp.Props.c103_parse
#print axioms Gridpp.Props.c103_get
#print axioms Gridpp.Props.c103_values
#print axioms Gridpp.Props.c103_values_none
#print axioms Gridpp.Props.c103_text_partial
#print axioms Gridpp.Props.c103_equal_partial
#print axioms Gridpp.Props.c103_check
#print axioms Gridpp.Props.c103_text_false
#print axioms Gridpp.Props.c103_equal_false
#print axioms Gridpp.Props.c103_check_false
#print axioms Gridpp.Props.c104_date_partial
#print axioms Gridpp.Props.c104_date_before
#print axioms Gridpp.Props.c104_date_false
#print axioms Gridpp.Props.c104_time
#print axioms Gridpp.Props.c104_unix
#print axioms Gridpp.Props.c104_days
#print axioms Gridpp.Props.c104_back
#print axioms Gridpp.Props.c104_calc
#print axioms Gridpp.Props.c104_invalid
#print axioms Gridpp.Props.c105_interpolate_partial
#print axioms Gridpp.Props.c105_mono
#print axioms Gridpp.Props.c105_library
#print axioms Gridpp.Props.c105_invalid
#print axioms Gridpp.Props.c105_missing_false
#print axioms Gridpp.Props.c106_qq_partial
#print axioms Gridpp.Props.c106_order
#print axioms Gridpp.Props.c106_errors
#print axioms Gridpp.Props.c106_train
#print axioms Gridpp.Props.c106_train_quantiles
#print axioms Gridpp.Props.c106_train_single_false
#print axioms Gridpp.Props.c106_zero_false
#print axioms Gridpp.Props.c106_nearest_false
#print axioms Gridpp.Props.c106_twice_false
#print axioms Gridpp.Props.c107_store
#print axioms Gridpp.Props.c107_times
#print axioms Gridpp.Props.c107_all
#print axioms Gridpp.Props.c107_nearest_partial
#print axioms Gridpp.Props.c107_without_tree
#print axioms Gridpp.Props.c107_empty
#print axioms Gridpp.Props.c107_number
#print axioms Gridpp.Props.c107_second_tree_false
#print axioms Gridpp.Props.c107_single_false
#print axioms Gridpp.Props.c107_missing_place_false
#print axioms Gridpp.Props.c107_number_false
#print axioms Gridpp.Props.c108_polynomial
#print axioms Gridpp.Props.c108_variables_partial
#print axioms Gridpp.Props.c108_errors
#print axioms Gridpp.Props.c108_train_line
#print axioms Gridpp.Props.c108_train_slope
#print axioms Gridpp.Props.c108_train_constant
#print axioms Gridpp.Props.c108_train_errors
#print axioms Gridpp.Props.c108_train_equal_false
#print axioms Gridpp.Props.c108_missing_predictor_false
#print axioms Gridpp.Props.c109_wind_partial
#print axioms Gridpp.Props.c109_wind_sign
#print axioms Gridpp.Props.c109_wind_errors
#print axioms Gridpp.Props.c109_qnh
#print axioms Gridpp.Props.c109_standard
#print axioms Gridpp.Props.c109_missing_parameter_false
#print axioms Gridpp.Props.c109_missing_value_false
#print axioms Gridpp.Props.c110_mask
#print axioms Gridpp.Props.c110_mask_times_partial
#print axioms Gridpp.Props.c110_mask_times_false
#print axioms Gridpp.Props.c110_errors
#print axioms Gridpp.Props.c110_override_partial
#print axioms Gridpp.Props.c110_altitude_partial
#print axioms Gridpp.Props.c110_elevation_false
#print axioms Gridpp.Props.c111_value
#print axioms Gridpp.Props.c111_options
#print axioms Gridpp.Props.c111_negative_radius
#print axioms Gridpp.Props.c111_location
#print axioms Gridpp.Props.c111_approx_differs
#print axioms Gridpp.Props.c112_dewpoint
#print axioms Gridpp.Props.c112_rh
#print axioms Gridpp.Props.c112_wetbulb
#print axioms Gridpp.Props.c112_errors
#print axioms Gridpp.Props.c112_other
#print axioms Gridpp.Props.c113_value
#print axioms Gridpp.Props.c113_inverse
#print axioms Gridpp.Props.c113_errors
#print axioms Gridpp.Props.c114_value_partial
#print axioms Gridpp.Props.c114_end
#print axioms Gridpp.Props.c114_errors
#print axioms Gridpp.Props.c114_order
#print axioms Gridpp.Props.c114_missing_laf
#print axioms Gridpp.Props.c114_negative_radius
#print axioms Gridpp.Props.c115_value
#print axioms Gridpp.Props.c115_convex
#print axioms Gridpp.Props.c115_negative
#print axioms Gridpp.Props.c115_corner_false
#print axioms Gridpp.Props.c115_trapezoid
#print axioms Gridpp.Props.c116_value_partial
#print axioms Gridpp.Props.c116_regular_partial
#print axioms Gridpp.Props.c116_no_return
#print axioms Gridpp.Props.c116_no_return_ub
#print axioms Gridpp.Props.c116_missing_place
#print axioms Gridpp.Props.c116_one_row
#print axioms Gridpp.Props.c116_north_south
#print axioms Gridpp.Props.c116_north_south_false
#print axioms Gridpp.Props.c116_east_west
#print axioms Gridpp.Props.c116_vector_false
#print axioms Gridpp.Props.c116_second_attempt
#print axioms Gridpp.Props.c117_value
#print axioms Gridpp.Props.c117_range
#print axioms Gridpp.Props.c117_antitone
#print axioms Gridpp.Props.c117_symmetric
#print axioms Gridpp.Props.c117_matrix
#print axioms Gridpp.Props.c117_missing
#print axioms Gridpp.Props.c117_options
#print axioms Gridpp.Props.c118_value_partial
#print axioms Gridpp.Props.c118_two_stations
#print axioms Gridpp.Props.c118_divide_false
#print axioms Gridpp.Props.c118_missing_parameter
#print axioms Gridpp.Props.c118_refused
#print axioms Gridpp.Props.c118_at_station_false
#print axioms Gridpp.Props.c118_missing_forecast_false
#print axioms Gridpp.Props.c118_cross_partial
#print axioms Gridpp.Props.c118_cross_false
#print axioms Gridpp.Props.c118_aux_partial
#print axioms Gridpp.Props.c118_aux_false
#print axioms Gridpp.Props.c118_aux_weight
#print axioms Gridpp.Props.c118_inverse
#print axioms Gridpp.Props.c118_solved_partial
#print axioms Gridpp.Props.c118_singular_false
#print axioms Gridpp.Props.c119_add
#print axioms Gridpp.Props.c119_subtract
#print axioms Gridpp.Props.c119_factor
#print axioms Gridpp.Props.c119_no_data_partial
#print axioms Gridpp.Props.c119_no_data_false
#print axioms Gridpp.Props.c120_array_partial
#print axioms Gridpp.Props.c120_pointer_partial
#print axioms Gridpp.Props.c120_lost_false
#print axioms Gridpp.Props.c120_times
#print axioms Gridpp.Props.c120_times_missing
#print axioms Gridpp.Props.c120_skip
#print axioms Gridpp.Props.c120_skip_false
#print axioms Gridpp.Props.c120_has
#print axioms Gridpp.Props.c120_names
#print axioms Gridpp.Props.c121_new
#print axioms Gridpp.Props.c121_add_partial
#print axioms Gridpp.Props.c121_max_false
#print axioms Gridpp.Props.c121_zero_false
#print axioms Gridpp.Props.c121_same
#print axioms Gridpp.Props.c122_p0_partial
#print axioms Gridpp.Props.c122_cdf_partial
#print axioms Gridpp.Props.c122_quantile_partial
#print axioms Gridpp.Props.c122_mono_partial
#print axioms Gridpp.Props.c122_missing
#print axioms Gridpp.Props.c122_few
#print axioms Gridpp.Props.c122_coincidence_false
#print axioms Gridpp.Props.c123_ensemble_partial
#print axioms Gridpp.Props.c123_rank_partial
#print axioms Gridpp.Props.c123_pop_partial
#print axioms Gridpp.Props.c123_pop_value_partial
#print axioms Gridpp.Props.c123_six_hours_false
#print axioms Gridpp.Props.c123_neighbour_false
#print axioms Gridpp.Props.c123_stale_false
#print axioms Gridpp.Props.c124_quantile
#print axioms Gridpp.Props.c124_cdf
#print axioms Gridpp.Props.c124_inverse
#print axioms Gridpp.Props.c124_missing
#print axioms Gridpp.Props.c124_few
#print axioms Gridpp.Props.c124_ensemble_partial
#print axioms Gridpp.Props.c124_rank_partial
#print axioms Gridpp.Props.c124_mean_partial
#print axioms Gridpp.Props.c124_some_missing_false
#print axioms Gridpp.Props.c124_low_mean_false
#print axioms Gridpp.Props.c124_neighbour_false
#print axioms Gridpp.Props.c124_missing_filled
#print axioms Gridpp.Props.c125_quantile
#print axioms Gridpp.Props.c125_level_lt
#print axioms Gridpp.Props.c125_level_unique
#print axioms Gridpp.Props.c125_missing
#print axioms Gridpp.Props.c125_level_zero
#print axioms Gridpp.Props.c125_few
#print axioms Gridpp.Props.c125_negative_false
#print axioms Gridpp.Props.c125_ensemble
#print axioms Gridpp.Props.c125_rank_partial
#print axioms Gridpp.Props.c126_lines
#print axioms Gridpp.Props.c126_read
#print axioms Gridpp.Props.c126_get
#print axioms Gridpp.Props.c126_white
#print axioms Gridpp.Props.c126_columns
#print axioms Gridpp.Props.c126_number
#print axioms Gridpp.Props.c126_refused
#print axioms Gridpp.Props.c126_unreadable_false
#print axioms Gridpp.Props.c126_malformed_false
#print axioms Gridpp.Props.c126_place_false
#print axioms Gridpp.Props.c126_negative_false
#print axioms Gridpp.Props.c126_last_false
#print axioms Gridpp.Props.c127_unreadable_false
#print axioms Gridpp.Props.c127_empty
#print axioms Gridpp.Props.c127_round_trip_partial
#print axioms Gridpp.Props.c128_line_partial
#print axioms Gridpp.Props.c128_example
#print axioms Gridpp.Props.c128_input_false
#print axioms Gridpp.Props.c128_lost_false
#print axioms Gridpp.Props.c128_downscaler_parameters_false
#print axioms Gridpp.Props.c128_parameters_false
#print axioms Gridpp.Props.c128_alias_false
#print axioms Gridpp.Props.c128_downscaler_false
#print axioms Gridpp.Props.c128_no_variable_false
#print axioms Gridpp.Props.c129_ends
#print axioms Gridpp.Props.c129_all
#print axioms Gridpp.Props.c129_refused
#print axioms Gridpp.Props.c129_example
#print axioms Gridpp.Props.c130_distinct_partial
#print axioms Gridpp.Props.c130_same
#print axioms Gridpp.Props.c130_all
#print axioms Gridpp.Props.c130_refused
#print axioms Gridpp.Props.c130_swap_false
#print axioms Gridpp.Props.c130_equal_sign_false
#print axioms Gridpp.Props.c130_example
#print axioms Gridpp.Props.c131_law
#print axioms Gridpp.Props.c131_missing
#print axioms Gridpp.Props.c131_grid_partial
#print axioms Gridpp.Props.c131_stations_partial
#print axioms Gridpp.Props.c131_elevation_false
#print axioms Gridpp.Props.c131_coordinate_false
#print axioms Gridpp.Props.c131_symmetry_false
#print axioms Gridpp.Props.c132_transform
#print axioms Gridpp.Props.c132_none
#print axioms Gridpp.Props.c132_log_partial
#print axioms Gridpp.Props.c132_log_zero_false
#print axioms Gridpp.Props.c132_missing_false
#print axioms Gridpp.Props.c132_variance_false
#print axioms Gridpp.Props.c132_one_false
#print axioms Gridpp.Props.c133_regular_partial
#print axioms Gridpp.Props.c133_irregular_partial
#print axioms Gridpp.Props.c133_window_false
#print axioms Gridpp.Props.c133_soar_false
#print axioms Gridpp.Props.c134_single_partial
#print axioms Gridpp.Props.c134_singular
#print axioms Gridpp.Props.c134_alone
#print axioms Gridpp.Props.c134_forecast
#print axioms Gridpp.Props.c134_smooth_false
#print axioms Gridpp.Props.c134_options_false
#print axioms Gridpp.Props.c134_variance_false
#print axioms Gridpp.Props.c135_kalman_partial
#print axioms Gridpp.Props.c135_parameters
#print axioms Gridpp.Props.c135_savediff_false
#print axioms Gridpp.Props.c136_filter_partial
#print axioms Gridpp.Props.c136_wrong_member
#print axioms Gridpp.Props.c137_bias_partial
#print axioms Gridpp.Props.c137_reset_false
#print axioms Gridpp.Props.c138_radar_partial
#print axioms Gridpp.Props.c138_singular
#print axioms Gridpp.Props.c138_no_radar_false
#print axioms Gridpp.Props.c139_delta_partial
#print axioms Gridpp.Props.c139_none
#print axioms Gridpp.Props.c139_missing_false
#print axioms Gridpp.Props.c139_one_false
#print axioms Gridpp.Props.c140_step_partial
#print axioms Gridpp.Props.c140_unchanged
#print axioms Gridpp.Props.c140_delta_partial
#print axioms Gridpp.Props.c140_station
#print axioms Gridpp.Props.c140_members
#print axioms Gridpp.Props.c140_dropped_false
#print axioms Gridpp.Props.c141_read_partial
#print axioms Gridpp.Props.c141_range
#print axioms Gridpp.Props.c141_number
#print axioms Gridpp.Props.c141_white
#print axioms Gridpp.Props.c141_empty_false
#print axioms Gridpp.Props.c141_zero_false
#print axioms Gridpp.Props.c141_malformed_false
#print axioms Gridpp.Props.c141_last_false
#print axioms Gridpp.Props.c141_same_place_false
#print axioms Gridpp.Props.c142_write_partial
#print axioms Gridpp.Props.c142_none
#print axioms Gridpp.Props.c142_read_false
#print axioms Gridpp.Props.c142_place_false
#print axioms Gridpp.Props.c142_rest_false
#print axioms Gridpp.Props.c143_read_partial
#print axioms Gridpp.Props.c143_roundtrip
#print axioms Gridpp.Props.c143_refused
#print axioms Gridpp.Props.c143_number
#print axioms Gridpp.Props.c143_time_false
#print axioms Gridpp.Props.c143_unix_false
#print axioms Gridpp.Props.c143_white_false
#print axioms Gridpp.Props.c143_line_false
#print axioms Gridpp.Props.c143_last_false
#print axioms Gridpp.Props.c143_rest_false
#print axioms Gridpp.Props.c143_zero_false
#print axioms Gridpp.Props.c144_write_partial
#print axioms Gridpp.Props.c144_stamp
#print axioms Gridpp.Props.c144_missing
#print axioms Gridpp.Props.c144_new
#print axioms Gridpp.Props.c144_refused
#print axioms Gridpp.Props.c144_times_false
#print axioms Gridpp.Props.c144_zero_false
#print axioms Gridpp.Props.c144_negative_false
#print axioms Gridpp.Props.c145_main_partial
#print axioms Gridpp.Props.c145_main_refused
#print axioms Gridpp.Props.c145_files
#print axioms Gridpp.Props.c145_pair
#print axioms Gridpp.Props.c145_self
#print axioms Gridpp.Props.c145_chain
#print axioms Gridpp.Props.c145_shared
#print axioms Gridpp.Props.c145_flags
#print axioms Gridpp.Props.c145_run
#print axioms Gridpp.Props.c145_level
#print axioms Gridpp.Props.c145_cases
#print axioms Gridpp.Props.c145_shown
#print axioms Gridpp.Props.c145_message
#print axioms Gridpp.Props.c145_write
#print axioms Gridpp.Props.c145_shown_false
#print axioms Gridpp.Props.c145_write_false
#print axioms Gridpp.Props.c146_index
#print axioms Gridpp.Props.c146_grid_partial
#print axioms Gridpp.Props.c146_refused
#print axioms Gridpp.Props.c146_overflow_false
#print axioms Gridpp.Props.c147_read_partial
#print axioms Gridpp.Props.c147_nearest_partial
#print axioms Gridpp.Props.c147_times_false
#print axioms Gridpp.Props.c147_five_dims_false
#print axioms Gridpp.Props.c147_missing_place_false
#print axioms Gridpp.Props.c148_write
#print axioms Gridpp.Props.c148_round_partial
#print axioms Gridpp.Props.c148_without_tree
#print axioms Gridpp.Props.c148_first_false
#print axioms Gridpp.Props.c148_dim_name_false
#print axioms Gridpp.Props.c148_fill_false
#print axioms Gridpp.Props.c149_read_partial
#print axioms Gridpp.Props.c149_level
#print axioms Gridpp.Props.c149_too_large
#print axioms Gridpp.Props.c149_time
#print axioms Gridpp.Props.c149_fill_false
#print axioms Gridpp.Props.c149_member_false
#print axioms Gridpp.Props.c150_write_partial
#print axioms Gridpp.Props.c150_no_time
#print axioms Gridpp.Props.c150_late
#print axioms Gridpp.Props.c150_round_partial
#print axioms Gridpp.Props.c150_level_false
#print axioms Gridpp.Props.c150_fill_false
#print axioms Gridpp.Props.c150_missing_false
#print axioms Gridpp.Props.c151_both
#print axioms Gridpp.Props.c151_one_partial
#print axioms Gridpp.Props.c151_error
#print axioms Gridpp.Props.c151_fill_false
#print axioms Gridpp.Props.c152_times_partial
#print axioms Gridpp.Props.c152_reference_partial
#print axioms Gridpp.Props.c152_reference_dims
#print axioms Gridpp.Props.c152_scalar_false
#print axioms Gridpp.Props.c152_many_false
#print axioms Gridpp.Props.c152_zero_false
#print axioms Gridpp.Props.c153_write_partial
#print axioms Gridpp.Props.c153_round_partial
#print axioms Gridpp.Props.c153_dims
#print axioms Gridpp.Props.c153_define
#print axioms Gridpp.Props.c153_define_rows
#print axioms Gridpp.Props.c153_single_false
#print axioms Gridpp.Props.c153_other_false
#print axioms Gridpp.Props.c154_history_partial
#print axioms Gridpp.Props.c154_prepend
#print axioms Gridpp.Props.c154_new
#print axioms Gridpp.Props.c154_others
#print axioms Gridpp.Props.c154_run_others
#print axioms Gridpp.Props.c154_conventions
#print axioms Gridpp.Props.c154_conventions_false
#print axioms Gridpp.Props.c154_zero_false
#print axioms Gridpp.Props.c155_write_partial
#print axioms Gridpp.Props.c155_round_partial
#print axioms Gridpp.Props.c155_times
#print axioms Gridpp.Props.c155_missing_false
#print axioms Gridpp.Props.c155_variable_false
#print axioms Gridpp.Props.c155_reference_false
#print axioms Gridpp.Props.c155_point_false
#print axioms Gridpp.Props.c156_reopen_partial
#print axioms Gridpp.Props.c156_variable_false
#print axioms Gridpp.Props.c156_fill_false
#print axioms Gridpp.Props.c156_unknown_false
#print axioms Gridpp.Props.c157_columns_partial
#print axioms Gridpp.Props.c157_narrow
#print axioms Gridpp.Props.c157_length_false
#print axioms Gridpp.Props.c157_title_false
#print axioms Gridpp.Props.c158_inverse
#print axioms Gridpp.Props.c158_missing
#print axioms Gridpp.Props.c158_ragged_false
#print axioms Gridpp.Props.c159_least
#print axioms Gridpp.Props.c159_error
#print axioms Gridpp.Props.c159_missing_false
#print axioms Gridpp.Props.c160_train_partial
#print axioms Gridpp.Props.c160_missing_land
#print axioms Gridpp.Props.c160_missing_false
#print axioms Gridpp.Props.c161_defaults_partial
#print axioms Gridpp.Props.c161_warning_partial
#print axioms Gridpp.Props.c161_required_partial
#print axioms Gridpp.Props.c161_names
#print axioms Gridpp.Props.c161_defaults_false
#print axioms Gridpp.Props.c161_defaults_found
#print axioms Gridpp.Props.c161_transform_false
#print axioms Gridpp.Props.c161_approx_false
#print axioms Gridpp.Props.c161_epsilonC_false
#print axioms Gridpp.Props.c161_dead_false
#print axioms Gridpp.Props.c161_silent_false
#print axioms Gridpp.Props.c161_window_false
#print axioms Gridpp.Props.c161_gradient_false
#print axioms Gridpp.Props.c161_case_defaults
#print axioms Gridpp.Props.c161_case_warning
#print axioms Gridpp.Props.c161_case_required
#print axioms Gridpp.Props.c161_hidden_required
#print axioms Gridpp.Props.c161_hidden_required_case
#print axioms Gridpp.Props.c162_gauss_value_partial
#print axioms Gridpp.Props.c162_gauss_order_partial
#print axioms Gridpp.Props.c162_gauss_train_partial
#print axioms Gridpp.Props.c162_no_data
#print axioms Gridpp.Props.c162_cold_false
#print axioms Gridpp.Props.c162_missing_obs_false
#print axioms Gridpp.Props.c162_zero_false
#print axioms Gridpp.Props.c162_zaga_value_partial
#print axioms Gridpp.Props.c162_zaga_order_partial
#print axioms Gridpp.Props.c162_zaga_case_partial
#print axioms Gridpp.Props.c162_zaga_train_partial
#print axioms Gridpp.Props.c162_fraction_false
#print axioms Gridpp.Props.c162_fraction_case
#print axioms Gridpp.Props.c162_no_member
#print axioms Gridpp.Props.c162_log_likelihood_false
#print axioms Gridpp.Props.c162_case_gauss
#print axioms Gridpp.Props.c162_case_zaga
#print axioms Gridpp.Props.c163_named
#print axioms Gridpp.Props.c163_detect
#print axioms Gridpp.Props.c163_complete
#print axioms Gridpp.Props.c163_sound_partial
#print axioms Gridpp.Props.c163_option_false
#print axioms Gridpp.Props.c163_text_false
#print axioms Gridpp.Props.c163_nothing
#print axioms Gridpp.Props.c163_blank
#print axioms Gridpp.Props.c163_case_detect
#print axioms Gridpp.Props.c163_case_named
#print axioms Gridpp.Props.c163_case_option
#print axioms Gridpp.Props.c163_case_blank
#print axioms Gridpp.Props.c164_grids_partial
#print axioms Gridpp.Props.c164_ragged_false
#print axioms Gridpp.Props.c164_empty_false
#print axioms Gridpp.Props.c164_same
#print axioms Gridpp.Props.c164_fake_field
#print axioms Gridpp.Props.c164_fake_sizes
#print axioms Gridpp.Props.c164_fake_false
#print axioms Gridpp.Props.c164_fake_fraction_false
#print axioms Gridpp.Props.c164_case_grids
#print axioms Gridpp.Props.c165_everywhere
#print axioms Gridpp.Props.c165_about
#print axioms Gridpp.Props.c165_cache
#print axioms Gridpp.Props.c165_times_false
#print axioms Gridpp.Props.c165_place_false
#print axioms Gridpp.Props.c165_element
#print axioms Gridpp.Props.c165_assign
#print axioms Gridpp.Props.c165_valid
#print axioms Gridpp.Props.c165_case
#print axioms Gridpp.Props.c166_files
#print axioms Gridpp.Props.c166_output_partial
#print axioms Gridpp.Props.c166_failure
#print axioms Gridpp.Props.c166_times
#print axioms Gridpp.Props.c166_lost_false
#print axioms Gridpp.Props.c166_case
#print axioms Gridpp.Props.c166_self
#print axioms Gridpp.Props.c166_nearest_partial
#print axioms Gridpp.Props.c166_bypass
#print axioms Gridpp.Props.c167_cases
#print axioms Gridpp.Props.c167_elsewhere
#print axioms Gridpp.Props.c167_outside
#print axioms Gridpp.Props.c167_none
#print axioms Gridpp.Props.c167_case
#print axioms Gridpp.Props.c168_names_partial
#print axioms Gridpp.Props.c168_unique
#print axioms Gridpp.Props.c168_variance
#print axioms Gridpp.Props.c168_case
#print axioms Gridpp.Props.c169_order_partial
#print axioms Gridpp.Props.c169_points_partial
#print axioms Gridpp.Props.c169_grid_full_partial
#print axioms Gridpp.Props.c169_grid_partial
#print axioms Gridpp.Props.c169_case
#print axioms Gridpp.Props.c169_ties
#print axioms Gridpp.Props.c170_compose
#print axioms Gridpp.Props.c170_grows
#print axioms Gridpp.Props.c171_units
#print axioms Gridpp.Props.c171_sum
#print axioms Gridpp.Props.c171_std
#print axioms Gridpp.Props.c172_mirror
#print axioms Gridpp.Props.c173_points_full
#print axioms Gridpp.Props.c173_points
#print axioms Gridpp.Props.c173_grid_full
#print axioms Gridpp.Props.c173_grid
#print axioms Gridpp.Props.c174_points
#print axioms Gridpp.Props.c174_grid
#print axioms Gridpp.Props.c174_ebesc
#print axioms Gridpp.Props.c174_ebesc_grid
#print axioms Gridpp.Props.c174_ebe
#print axioms Gridpp.Props.c174_ebe_grid
#print axioms Gridpp.Props.c174_second_ensemble
#print axioms Gridpp.Props.c175_nearest
#print axioms Gridpp.Props.c175_nearest_layers
#print axioms Gridpp.Props.c175_bilinear
#print axioms Gridpp.Props.c175_bilinear_layers
#print axioms Gridpp.Props.c175_simple_gradient
#print axioms Gridpp.Props.c175_full_gradient_points
#print axioms Gridpp.Props.c175_full_gradient_debug
#print axioms Gridpp.Props.c175_full_gradient_grid
#print axioms Gridpp.Props.c175_full_gradient_times
#print axioms Gridpp.Props.c175_bilinear_linear_only
#print axioms Gridpp.Props.c176_interpolate
#print axioms Gridpp.Props.c176_apply_curve
#print axioms Gridpp.Props.c176_apply_curve_fields
#print axioms Gridpp.Props.c176_apply_curve_spatial
#print axioms Gridpp.Props.c176_quantile_mapping
#print axioms Gridpp.Props.c176_monotonize_partial
#print axioms Gridpp.Props.c176_monotonize_tolerance
#print axioms Gridpp.Props.c176_one_to_one_units
#print axioms Gridpp.Props.c177_fill
#print axioms Gridpp.Props.c177_doping
#print axioms Gridpp.Props.c177_fill_missing
#print axioms Gridpp.Props.c177_smart
#print axioms Gridpp.Props.c177_gridding
#print axioms Gridpp.Props.c177_gridding_nearest
#print axioms Gridpp.Props.c177_sum_offset
#print axioms Gridpp.Props.c178_mirror
#print axioms Gridpp.Props.c178_linear
#print axioms Gridpp.Props.c178_second_pass
#print axioms Gridpp.Props.c178_not_idempotent
#print axioms Gridpp.Props.c179_probability
#print axioms Gridpp.Props.c179_probability_reversed
#print axioms Gridpp.Props.c179_mask_consensus
#print axioms Gridpp.Props.c179_mask_quantile
#print axioms Gridpp.Props.c179_mask_reversed
#print axioms Gridpp.Props.c179_minmax
#print axioms Gridpp.Props.c179_regression
#print axioms Gridpp.Props.c179_search
#print axioms Gridpp.Props.c179_range_units
#print axioms Gridpp.Props.c180_regression
#print axioms Gridpp.Props.c180_minmax_partial
#print axioms Gridpp.Props.c180_minmax_first
#print axioms Gridpp.Props.c180_search_partial
#print axioms Gridpp.Props.c180_search_first
#print axioms Gridpp.Props.c181_units_partial
#print axioms Gridpp.Props.c181_reversed_partial
#print axioms Gridpp.Props.c181_past_partial
#print axioms Gridpp.Props.c181_compose
#print axioms Gridpp.Props.c181_sum_compose
#print axioms Gridpp.Props.c182_units
#print axioms Gridpp.Props.c182_order
#print axioms Gridpp.Props.c182_copies
#print axioms Gridpp.Props.c182_exchange
#print axioms Gridpp.Props.c182_exchange_not
#print axioms Gridpp.Props.c182_direction
#print axioms Gridpp.Props.c182_direction_not
#print axioms Gridpp.Props.c182_optimal
#print axioms Gridpp.Props.c182_curve
#print axioms Gridpp.Props.c182_case_search
#print axioms Gridpp.Props.c182_case
#print axioms Gridpp.Props.c183_score
#print axioms Gridpp.Props.c183_ldc_partial
#print axioms Gridpp.Props.c183_ldc_unit
#print axioms Gridpp.Props.c183_case_sort
#print axioms Gridpp.Props.c183_case
#print axioms Gridpp.Props.c184_gridding
#print axioms Gridpp.Props.c184_gridding_nearest
#print axioms Gridpp.Props.c184_score
#print axioms Gridpp.Props.c184_count
#print axioms Gridpp.Props.c184_fill
#print axioms Gridpp.Props.c184_case
#print axioms Gridpp.Props.c184_doping_order
#print axioms Gridpp.Props.c184_doping_partial
#print axioms Gridpp.Props.c184_case_doping
#print axioms Gridpp.Props.c185_count
#print axioms Gridpp.Props.c185_radius
#print axioms Gridpp.Props.c185_fill
#print axioms Gridpp.Props.c185_fill_twice
#print axioms Gridpp.Props.c185_outside_false
#print axioms Gridpp.Props.c185_case
#print axioms Gridpp.Props.c186_statistic
#print axioms Gridpp.Props.c186_statistic_range
#print axioms Gridpp.Props.c186_neighbourhood
#print axioms Gridpp.Props.c186_neighbourhood_quantile
#print axioms Gridpp.Props.c186_neighbourhood_range
#print axioms Gridpp.Props.c186_gridding
#print axioms Gridpp.Props.c186_gridding_range
#print axioms Gridpp.Props.c186_case
#print axioms Gridpp.Props.c186_others_false
#print axioms Gridpp.Props.c187_window_partial
#print axioms Gridpp.Props.c187_window_range_partial
#print axioms Gridpp.Props.c187_gridding_nearest
#print axioms Gridpp.Props.c187_gridding_nearest_points
#print axioms Gridpp.Props.c187_case
#print axioms Gridpp.Props.c188_nearest
#print axioms Gridpp.Props.c188_bilinear
#print axioms Gridpp.Props.c188_downscaling
#print axioms Gridpp.Props.c188_order
#print axioms Gridpp.Props.c188_range
#print axioms Gridpp.Props.c188_simple_gradient
#print axioms Gridpp.Props.c188_full_gradient_points
#print axioms Gridpp.Props.c188_full_gradient_grid
#print axioms Gridpp.Props.c188_full_gradient_times
#print axioms Gridpp.Props.c188_case
#print axioms Gridpp.Props.c188_case_gradient
#print axioms Gridpp.Props.c189_fill_relation
#print axioms Gridpp.Props.c189_fill_missing
#print axioms Gridpp.Props.c189_fill_range
#print axioms Gridpp.Props.c189_smart_relation
#print axioms Gridpp.Props.c189_smart
#print axioms Gridpp.Props.c189_smart_range
#print axioms Gridpp.Props.c189_case
#print axioms Gridpp.Props.c189_case_range
#print axioms Gridpp.Props.c189_case_smart
