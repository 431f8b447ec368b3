{"id": "C01", "title": "Statistics ignore missing values and value order", "statement": "calc_statistic(array, s) for Mean, Sum, Count, Min, Median, Max, Std and Variance depends only on the multiset of valid (non-NaN, non-infinite) values in the array: dropping or inserting missing values, or permuting the array, never changes the result. A result is missing exactly when there is no valid value (Count then gives 0).", "quantifier": "every array of any length, with any pattern of NaN/inf, every permutation, every one of the eight statistics", "why_tests_cant": "the space of arrays, missing-value patterns and permutations is unbounded; the Std path keys its shift on whichever valid value comes first", "anchors": ["src/api/util.cpp: gridpp::calc_statistic(const vec&, Statistic), gridpp::calc_quantile(const vec&, float), gridpp::is_valid"]}
{"id": "C02", "title": "Mean, Sum and Count are the arithmetic mean, sum and number of the valid values; Min <= Mean <= Max", "statement": "For an array with at least one valid value, Sum is the sum of the valid values, Mean*Count = Sum, Count = number of valid values, Min and Max are attained by a valid value and bound every valid value, and Min <= Median <= Max and Min <= Mean <= Max.", "quantifier": "every array of any length", "why_tests_cant": "bounds must hold for arbitrarily many values", "anchors": ["src/api/util.cpp: gridpp::calc_statistic", "src/api/util.cpp: gridpp::calc_quantile"]}
{"id": "C03", "title": "Variance is the population variance, never negative, and does not depend on the shift", "statement": "calc_statistic(array, Variance) is the average squared deviation of the valid values from their mean, is >= 0, is 0 iff all valid values are equal, is unchanged when a constant is added to all values; Std is its non-negative square root. The clamp 'var < 0 -> 0' never changes a result in exact arithmetic.", "quantifier": "every array of any length, every added constant", "why_tests_cant": "requires an algebraic identity over arbitrarily many terms", "anchors": ["src/api/util.cpp: gridpp::calc_statistic (Std/Variance branch, lines 40-74)"]}
{"id": "C04", "title": "Quantile of an array: order-statistic interpolation, monotone in the level, bounded by the data", "statement": "calc_quantile(array, q): throws invalid_argument exactly for q < 0 or q > 1; a missing q or an array without valid values gives missing; otherwise the result lies between the smallest and largest valid value, is non-decreasing in q, equals the k-th smallest valid value at q = k/(N-1), and equals min at 0 and max at 1; no read outside the array ever happens.", "quantifier": "every array, every quantile level (including NaN and infinities)", "why_tests_cant": "level and array are continuous/unbounded; index arithmetic must be in range for all N and q", "anchors": ["src/api/util.cpp: gridpp::calc_quantile(const vec&, float)"]}
{"id": "C05", "title": "calc_even_quantiles returns sorted values of the input that include its extremes", "statement": "For a non-empty array of valid values and num >= 2: the output is non-decreasing, every output element occurs in the input, there are at most num elements, the first is the minimum and the last is the maximum of the input; the 'Internal error' branch is unreachable; when num >= size the output is exactly the set of distinct values in increasing order.", "quantifier": "every array of valid values and every num", "why_tests_cant": "index truncation i*R/num_left - 1 must be in range for every pair of sizes", "anchors": ["src/api/util.cpp: gridpp::calc_even_quantiles"]}
{"id": "C06", "title": "calc_even_quantiles ignores duplicates", "statement": "The documentation says duplicate values are ignored: the output of calc_even_quantiles contains no value twice.", "quantifier": "every array of valid values and every num", "why_tests_cant": "duplicates only appear for particular ratios of unique values to requested levels", "anchors": ["src/api/util.cpp: gridpp::calc_even_quantiles", "include/gridpp.h: calc_even_quantiles"]}
{"id": "C07", "title": "Piecewise-linear interpolation: exact at the knots, clamped outside, between its neighbours, monotone", "statement": "interpolate(x, X, Y) with sorted X and equally long non-empty X, Y: returns Y[i] at a knot X[i] that is not repeated, the first/last Y outside the range, otherwise a value on the segment between the two bracketing knots; the result always lies within [min Y, max Y]; if Y is non-decreasing the result is non-decreasing in x (x varying over all valid values, X strictly increasing); no out-of-range read occurs.", "quantifier": "every sorted X of any length, every Y, every x", "why_tests_cant": "needs the bracketing invariant of both index searches for every curve", "anchors": ["src/api/util.cpp: gridpp::interpolate", "src/api/util.cpp: gridpp::get_lower_index, gridpp::get_upper_index"]}
{"id": "C08", "title": "interpolate: error and missing-value contract", "statement": "A missing x gives missing before any size check; different sizes of X and Y throw invalid_argument; empty X, Y give missing. The vector overload throws on size mismatch even when the lookup vector is empty or missing.", "quantifier": "all inputs", "why_tests_cant": "contract over every combination of sizes and missing values", "anchors": ["src/api/util.cpp: gridpp::interpolate (both overloads)"]}
{"id": "C09", "title": "interpolate: repeated abscissas", "statement": "When x equals an abscissa that is repeated, the result is the average of the ordinates at the two ends of the constant run, except when exactly one end of the run is an end of the curve, in which case the ordinate at the inner end is returned.", "quantifier": "every sorted curve and every run position", "why_tests_cant": "unbounded run lengths and positions", "anchors": ["src/api/util.cpp: gridpp::interpolate (lines 398-407)", "include/gridpp.h: interpolate doc"]}
{"id": "C10", "title": "point_in_rectangle decides membership of a closed parallelogram", "statement": "For corners A,B,C,D given in drawing order of a non-degenerate parallelogram (in particular a rectangle), in either orientation, point_in_rectangle(A,B,C,D,m) is true exactly when m = A + s(B-A) + t(D-A) for some s,t in [0,1].", "quantifier": "all coordinates of the four corners and of the point", "why_tests_cant": "continuous domain", "anchors": ["src/api/util.cpp: gridpp::point_in_rectangle"]}
{"id": "C11", "title": "get_nearest_neighbour returns a nearest point", "statement": "Points/Grid::get_nearest_neighbour(lat, lon) on a non-empty set returns an index in range whose straight-line distance to the query is <= the distance of every other point; with include_match=false the returned point does not coincide with the query and is nearest among those that do not. On an empty set (or when every point matches) Points gives -1 and Grid an empty vector.", "quantifier": "every finite set of valid coordinates and every query", "why_tests_cant": "unbounded number and position of points", "anchors": ["src/api/kdtree.cpp: KDTree::get_closest_neighbours", "src/api/points.cpp: Points::get_nearest_neighbour", "src/api/grid.cpp: Grid::get_nearest_neighbour"]}
{"id": "C12", "title": "get_neighbours returns exactly the points within the radius", "statement": "get_neighbours(lat, lon, radius) returns the indices, each once, of exactly the points whose straight-line distance to the query is <= radius (and > 0 when include_match is false).", "quantifier": "every point set, query and radius", "why_tests_cant": "the query is answered by a box search plus a predicate; whether the box loses boundary points depends on geometry", "anchors": ["src/api/kdtree.cpp: KDTree::get_neighbours, within_radius", "include/gridpp.h: KDTree::get_neighbours"]}
{"id": "C13", "title": "Neighbour counts and distances agree with the neighbour list", "statement": "get_num_neighbours equals the length of get_neighbours for the same arguments, and get_neighbours_with_distance returns the same indices with the i-th distance being the distance of the i-th index, all <= radius.", "quantifier": "every point set, query and radius", "why_tests_cant": "consistency across three entry points for every input", "anchors": ["src/api/kdtree.cpp: get_num_neighbours, get_neighbours_with_distance, get_neighbours", "src/api/grid.cpp: get_num_neighbours, get_neighbours_with_distance"]}
{"id": "C14", "title": "get_closest_neighbours returns the num closest points", "statement": "get_closest_neighbours(lat, lon, num) returns min(num, number of eligible points) distinct in-range indices such that every returned point is at most as far as every eligible point not returned.", "quantifier": "every point set, query and num", "why_tests_cant": "unbounded sets", "anchors": ["src/api/kdtree.cpp: KDTree::get_closest_neighbours"]}
{"id": "C15", "title": "Grid indices are row-major and (y,x) conversion is a bijection", "statement": "For a rectangular Y x X grid, size() is (Y,X), flat index i corresponds to (i / X, i % X), to_points() lists locations, elevations and land fractions in row-major order, get_point(y,x) carries the coordinates of cell (y,x), and a grid query returns the (y,x) of the flat index the point query on to_points() returns.", "quantifier": "every grid size", "why_tests_cant": "index arithmetic for every Y, X", "anchors": ["src/api/grid.cpp: Grid::Grid, get_indices, size, to_points, get_point"]}
{"id": "C16", "title": "Grid::get_box returns a unit cell that contains the point", "statement": "If get_box returns true then Y2 = Y1+1, X2 = X1+1, both within the grid, the nearest grid point is one of the four corners, and the query point is inside the quadrilateral of these corners; it returns false for an empty grid and for grids with one row or column. No out-of-range read occurs for rectangular grids.", "quantifier": "every rectangular grid and query point", "why_tests_cant": "all positions of the nearest neighbour incl. edges/corners, all grid sizes", "anchors": ["src/api/grid.cpp: Grid::get_box"]}
{"id": "C17", "title": "get_box works for both coordinate types", "statement": "For a Cartesian (x/y) grid with valid coordinates, get_box never raises an exception (y coordinates in metres may be any finite number).", "quantifier": "every Cartesian grid and query point", "why_tests_cant": "only coordinates beyond the latitude range expose it", "anchors": ["src/api/grid.cpp: Grid::get_box lines 197-201", "src/api/point.cpp: Point::Point"]}
{"id": "C18", "title": "Copying Points preserves locations, metadata and coordinate type", "statement": "A copy-constructed or assigned Points object has the same coordinates, elevations, land fractions, coordinate type and query results as the original.", "quantifier": "every Points object of either coordinate type", "why_tests_cant": "depends on state carried by every object, tests use geodetic points", "anchors": ["src/api/points.cpp: Points::Points(const Points&), Points::operator="]}
{"id": "C19", "title": "Points::subset and get_in_domain select the indexed points in order", "statement": "subset(indices) yields the points at the given indices in the given order with the same metadata and coordinate type and throws invalid_argument for any index outside [0, size); get_in_domain selects exactly the points for which the grid has a box.", "quantifier": "every Points object and index list", "why_tests_cant": "all index lists", "anchors": ["src/api/points.cpp: Points::subset, get_in_domain, get_in_domain_indices"]}
{"id": "C20", "title": "Nearest-neighbour interpolation copies the value at a nearest input location", "statement": "nearest(...) (all eight overloads) fills each output location with the input value at an input location nearest to it (for each time), throws invalid_argument when values and input locations have different sizes, gives all-missing output for empty input, and is the identity when output locations equal pairwise distinct input locations.", "quantifier": "every pair of grids/points and every field", "why_tests_cant": "unbounded geometry", "anchors": ["src/api/nearest.cpp: gridpp::nearest"]}
{"id": "C21", "title": "Fast neighbourhood mean/sum/count equals brute force", "statement": "neighbourhood(field, hw, Mean|Sum|Count) equals, at every cell, calc_statistic over the (2hw+1)^2 square clipped to the grid, for every rectangular field with any missing-value pattern; no out-of-range read.", "quantifier": "every rectangular field, every half width >= 0 (also larger than the field)", "why_tests_cant": "summed-area-table inclusion-exclusion must hold at all edges and sizes", "anchors": ["src/api/neighbourhood.cpp: gridpp::neighbourhood(const vec2&) lines 45-145", "src/api/neighbourhood.cpp: neighbourhood_brute_force"]}
{"id": "C22", "title": "Fast neighbourhood min/max equals brute force", "statement": "neighbourhood(field, hw, Min|Max) equals calc_statistic over the clipped square at every cell.", "quantifier": "every rectangular field and half width", "why_tests_cant": "the sliver method only applies to interior rows; border and interior must agree for all sizes", "anchors": ["src/api/neighbourhood.cpp: lines 146-210"]}
{"id": "C23", "title": "Neighbourhood variance/std equals brute force", "statement": "neighbourhood(field, hw, Variance|Std) equals calc_statistic over the clipped square at every cell (exact arithmetic).", "quantifier": "every rectangular field and half width", "why_tests_cant": "algebraic identity over arbitrary windows with missing values", "anchors": ["src/api/neighbourhood.cpp: lines 211-235"]}
{"id": "C24", "title": "neighbourhood argument contract", "statement": "neighbourhood throws invalid_argument for half width < 0 and for Quantile, returns an empty field for an empty input, otherwise a field of the input's size; half width 0 with Mean, Sum, Min, Max or Median returns the input with invalid values replaced by missing.", "quantifier": "every field and half width", "why_tests_cant": "all fields", "anchors": ["src/api/neighbourhood.cpp: gridpp::neighbourhood"]}
{"id": "C25", "title": "Ensemble neighbourhood pools all members", "statement": "neighbourhood(ensemble, hw, s) equals the statistic over all members of all cells in the clipped square.", "quantifier": "every ensemble field, half width and statistic", "why_tests_cant": "differs only with missing members or order statistics", "anchors": ["src/api/neighbourhood.cpp: gridpp::neighbourhood(const vec3&)", "include/gridpp.h: neighbourhood(vec3) doc"]}
{"id": "C26", "title": "Fast neighbourhood quantile stays within the thresholds and is schedule independent", "statement": "neighbourhood_quantile_fast gives at each cell either missing or a value between the smallest and largest threshold, determined by that cell's quantile level and window only, for any number of OpenMP threads and any interleaving.", "quantifier": "every field, thresholds, quantile field and thread interleaving", "why_tests_cant": "data races need adversarial schedules", "anchors": ["src/api/neighbourhood.cpp: gridpp::neighbourhood_quantile_fast lines 365-404 and 481-522"]}
{"id": "C27", "title": "Fast neighbourhood quantile approximates the exact cumulative distribution at thresholds", "statement": "In neighbourhood_quantile_fast, the cumulative probability used at threshold t in a cell is exactly the fraction of valid values in the clipped window that are <= t; the sequence of probabilities is non-decreasing in the threshold, so interpolation never leaves defined behaviour for sorted thresholds.", "quantifier": "every field, every sorted threshold list", "why_tests_cant": "interpolate is undefined for unsorted abscissas; need sortedness for every field", "anchors": ["src/api/neighbourhood.cpp: lines 333-404"]}
{"id": "C28", "title": "neighbourhood_quantile is bounded by the window values and monotone in the level", "statement": "neighbourhood_quantile(field, q, hw) is missing iff the clipped window has no valid value, lies between the min and max valid window value, is non-decreasing in q; an invalid level never returns normally.", "quantifier": "every field, level, half width", "why_tests_cant": "continuous level, unbounded field", "anchors": ["src/api/neighbourhood.cpp: gridpp::neighbourhood_quantile, neighbourhood_brute_force"]}
{"id": "C29", "title": "Window statistics equal the statistic over the window", "statement": "window(array, length, s, before, keep_missing, missing_edges) equals, at each time, calc_statistic over the window clipped to the array (missing at overshooting edges if missing_edges, missing if keep_missing and some window value is missing), and reads no element outside the arrays.", "quantifier": "every array, length, statistic and flag combination", "why_tests_cant": "the first elements need a guard that only some statistics have", "anchors": ["src/api/window.cpp: gridpp::window"]}
{"id": "C30", "title": "Running sum over a window equals the brute-force sum", "statement": "window(array, length, Sum, before, keep_missing=false, missing_edges) is well defined for every rectangular array and equals the sum of the valid values in the clipped window (missing if none).", "quantifier": "every array, odd length (or any length with before)", "why_tests_cant": "accumulation/deaccumulation identity for every size and missing pattern", "anchors": ["src/api/window.cpp: lines 33-110"]}
{"id": "C31", "title": "apply_curve follows the curve inside and the policy outside", "statement": "apply_curve(x, ref, fcst, below, above): inside [fcst_first, fcst_last] it is the piecewise-linear interpolation; outside, Unchanged returns x, Zero the nearest end value, OneToOne the end value plus the distance, MeanSlope/NearestSlope continue with the mean/end-segment slope; it is continuous at the ends of a strictly increasing curve for every policy except Unchanged; throws invalid_argument on size mismatch or empty curves.", "quantifier": "every curve, input and policy pair", "why_tests_cant": "continuous inputs and arbitrary curves", "anchors": ["src/api/curve.cpp: gridpp::apply_curve(float, ...)"]}
{"id": "C32", "title": "apply_curve preserves order", "statement": "If fcst is strictly increasing and ref non-decreasing, apply_curve with Zero, OneToOne, MeanSlope or NearestSlope policies (any combination below/above) is non-decreasing in the input.", "quantifier": "every pair of inputs, every monotone curve", "why_tests_cant": "continuous pairs of inputs across the three regimes", "anchors": ["src/api/curve.cpp: gridpp::apply_curve"]}
{"id": "C33", "title": "monotonize_curve returns a strictly increasing subsequence of the valid curve points", "statement": "monotonize_curve(ref, fcst): the output curves have equal length, are a subsequence of the input pairs in which both are valid, and the output fcst is strictly increasing (consecutive points separated by more than the tolerance).", "quantifier": "every curve, including with missing values and repeated deviations", "why_tests_cant": "loop invariant over unbounded zig-zag curves", "anchors": ["src/api/curve.cpp: gridpp::monotonize_curve"]}
{"id": "C34", "title": "monotonize_curve is defined for every non-empty curve", "statement": "monotonize_curve on non-empty curves of equal length never reads outside the curve, including when all points are missing.", "quantifier": "every curve", "why_tests_cant": "all-missing input", "anchors": ["src/api/curve.cpp: lines 162-177"]}
{"id": "C35", "title": "quantile_mapping_curve pairs equal quantiles", "statement": "quantile_mapping_curve(ref, fcst, quantiles): without quantiles, the i-th output pair is (i-th smallest ref, i-th smallest fcst); with quantiles, the output pairs are the corresponding order statistics of ref and fcst. Output curves are sorted.", "quantifier": "every pair of arrays and quantile list", "why_tests_cant": "unbounded arrays", "anchors": ["src/api/quantile_mapping.cpp: gridpp::quantile_mapping_curve"]}
{"id": "C36", "title": "fill_missing keeps valid values and fills gaps by linear interpolation", "statement": "fill_missing never changes a valid value; every missing cell lying between two valid cells in its row or column becomes valid, with a value between the bracketing values' extremes.", "quantifier": "every rectangular field", "why_tests_cant": "every missing pattern", "anchors": ["src/api/fill.cpp: gridpp::fill_missing"]}
{"id": "C37", "title": "fill_missing leaves no missing values when something is valid", "statement": "The documentation promises that missing values are filled in: after fill_missing no cell is missing if at least one cell was valid.", "quantifier": "every rectangular field", "why_tests_cant": "leading/trailing runs", "anchors": ["src/api/fill.cpp: gridpp::fill_missing", "include/gridpp.h: fill_missing doc"]}
{"id": "C38", "title": "fill changes exactly the cells inside (or outside) the circles", "statement": "fill(grid, input, points, radii, value, outside=false) sets to value exactly the cells within radius of some point (as answered by get_neighbours) and keeps all others; with outside=true the complement; throws for negative radius or size mismatch.", "quantifier": "every grid, field, points and radii", "why_tests_cant": "all overlaps", "anchors": ["src/api/fill.cpp: gridpp::fill"]}
{"id": "C39", "title": "Doping changes only cells near an observation and uses the last matching observation", "statement": "doping_square/doping_circle: a cell outside all observation footprints (or failing the elevation check) keeps the background; otherwise it takes the value of the last observation in input order that covers it.", "quantifier": "every grid, background and observation list", "why_tests_cant": "overlapping footprints in any order", "anchors": ["src/api/doping.cpp: gridpp::doping_square, gridpp::doping_circle"]}
{"id": "C40", "title": "gridding aggregates exactly the neighbours", "statement": "gridding(grid, points, values, radius, min_num, s): a cell is missing if fewer than min_num points lie within radius (as answered by get_neighbours, see C12), otherwise the statistic of exactly the values of those points; the result is independent of point order for order-independent statistics and of the thread schedule.", "quantifier": "every grid, point set, radius", "why_tests_cant": "all schedules and point sets", "anchors": ["src/api/gridding.cpp: gridpp::gridding"]}
{"id": "C41", "title": "gridding_nearest assigns each value to exactly one cell", "statement": "gridding_nearest: every point's value is aggregated in exactly one cell, a nearest cell to it; cells with fewer than min_num points are missing; with Count and min_num=0 the counts over the grid sum to the number of valid values.", "quantifier": "every grid and point set", "why_tests_cant": "conservation over unbounded sets", "anchors": ["src/api/gridding.cpp: gridpp::gridding_nearest"]}
{"id": "C42", "title": "count and distance agree with the neighbour queries", "statement": "count(in, out, radius) is at every output location the number of input locations returned by a radius query; distance(in, out, num) is the largest distance to the num closest input locations; both keep the output shape.", "quantifier": "every geometry", "why_tests_cant": "unbounded point sets", "anchors": ["src/api/count.cpp: gridpp::count", "src/api/distance.cpp: gridpp::distance"]}
{"id": "C43", "title": "Bilinear interpolation is a convex combination of the four corners and reproduces them", "statement": "When bilinear returns an interpolated value from four valid corners, it is a combination with non-negative weights summing to one (for interpolation coordinates in [0,1]): between the smallest and largest corner values, equal to the corner value at a corner, and it reproduces affine fields exactly on parallelogram cells.", "quantifier": "all cell geometries and values", "why_tests_cant": "continuous domain; several algebraic special cases", "anchors": ["src/api/bilinear.cpp"]}
{"id": "C44", "title": "Bilinear falls back to nearest neighbour", "statement": "bilinear gives the nearest-neighbour value at output locations outside the grid and where one of the four corner values is missing.", "quantifier": "every grid, field and location", "why_tests_cant": "all missing patterns and locations", "anchors": ["src/api/bilinear.cpp: calc, gridpp::bilinear"]}
{"id": "C45", "title": "simple_gradient adds gradient times elevation difference", "statement": "simple_gradient = downscaled value + gradient * (output elevation - downscaled input elevation); gradient 0 equals the plain downscaling wherever elevations are valid; equal elevations give the plain downscaling.", "quantifier": "all grids, fields, gradients", "why_tests_cant": "all inputs", "anchors": ["src/api/simple_gradient.cpp: gridpp::simple_gradient"]}
{"id": "C46", "title": "full_gradient reduces to plain downscaling where no correction is possible", "statement": "full_gradient with empty gradients, missing elevation/land-fraction or gradient equal 0 equals downscaling; otherwise adds gradient times difference for each of elevation and land fraction. Never reads outside its inputs, for all optional-argument combinations incl. full_gradient_debug.", "quantifier": "all grids, fields, gradients, optional arguments", "why_tests_cant": "optional argument combinations", "anchors": ["src/api/gradient.cpp: gridpp::full_gradient, gridpp::full_gradient_debug"]}
{"id": "C47", "title": "Optimal interpolation leaves cells without usable observations unchanged", "statement": "optimal_interpolation: a cell with invalid background, or with no valid observation with positive structure-function correlation within the localization radius, keeps its background value (and its background variance); no observations at all returns the background.", "quantifier": "every background, observation set, structure function", "why_tests_cant": "all missing patterns and geometries", "anchors": ["src/api/oi.cpp: gridpp::optimal_interpolation_full, gridpp::optimal_interpolation"]}
{"id": "C48", "title": "OI uses at most max_points observations and the most correlated ones", "statement": "With max_points > 0 the analysis at a cell uses at most max_points observations, and every used observation has correlation >= that of every usable observation not used.", "quantifier": "every observation set", "why_tests_cant": "unbounded sets, ties", "anchors": ["src/api/oi.cpp: lines selecting lLocIndices", "src/api/oi_ensi.cpp"]}
{"id": "C49", "title": "OI without extrapolation keeps increments within the observed increments", "statement": "With allow_extrapolation=false the analysis increment lies between min(0, smallest observation increment) and max(0, largest observation increment).", "quantifier": "every configuration", "why_tests_cant": "boundary case of increments equal to 0", "anchors": ["src/api/oi.cpp: anti-extrapolation filter", "src/api/oi_ensi.cpp", "src/api/oi_ensi_multi.cpp"]}
{"id": "C50", "title": "Gridded OI is the point OI on the flattened grid", "statement": "optimal_interpolation on a grid equals, cell by cell, the Points version applied to the row-major flattened grid; output shape equals the grid; size mismatches throw invalid_argument; no out-of-range access occurs, including with zero observations.", "quantifier": "every grid, observation set", "why_tests_cant": "shape bookkeeping for all sizes, nS==0 case", "anchors": ["src/api/oi.cpp: gridpp::optimal_interpolation_full(Grid)", "src/api/oi_ensi.cpp", "src/api/oi_ensi_multi.cpp"]}
{"id": "C51", "title": "OI analysis formula and variance", "statement": "For one usable observation the analysis is background + rho/(1+ratio) * (obs - pbackground) and lies between background and background+innovation; the analysis variance lies in [0, background variance].", "quantifier": "all values", "why_tests_cant": "continuous domain", "anchors": ["src/api/oi.cpp"]}
{"id": "C52", "title": "Ensemble OI leaves incomplete members untouched and never touches unaffected cells", "statement": "optimal_interpolation_ensi(_multi): members with a missing value anywhere keep their background everywhere; cells without usable observations keep all members; no out-of-range access for any number of observations, grid points and valid members.", "quantifier": "every ensemble, missing pattern, observation count", "why_tests_cant": "relative sizes of nS and nY, position of invalid members", "anchors": ["src/api/oi_ensi.cpp", "src/api/oi_ensi_multi.cpp"]}
{"id": "C53", "title": "Verification scores stay in their range and perfect forecasts score 1", "statement": "For any contingency table with non-negative entries: Ts, Pc in [0,1] (or missing), Kss in [-1,1], Hss <= 1, Ets <= 1; a perfect forecast (no misses or false alarms, with hits and correct negatives) gives 1 for all; scores are missing (never NaN-by-accident or infinite) exactly when undefined.", "quantifier": "all contingency tables", "why_tests_cant": "rational functions over unbounded counts", "anchors": ["src/api/metric_optimizer.cpp: gridpp::calc_score"]}
{"id": "C54", "title": "Contingency table counts every valid pair exactly once", "statement": "calc_score(ref, fcst, threshold, metric) classifies each pair with a valid reference exactly once among hit/false alarm/miss/correct negative.", "quantifier": "all arrays and thresholds", "why_tests_cant": "unbounded arrays", "anchors": ["src/api/metric_optimizer.cpp: gridpp::calc_score(const vec&, const vec&, float, float, Metric)"]}
{"id": "C55", "title": "Structure functions are symmetric correlations", "statement": "For every structure function, corr(p1,p2) = corr(p2,p1) (non-spatial parameters), 0 <= corr <= 1, and corr(p,p) = 1.", "quantifier": "every pair of points and every parameters", "why_tests_cant": "continuous domain; sign of elevation/laf difference matters", "anchors": ["src/api/structure.cpp: barnes_rho, cressman_rho, soar_rho, toar_rho, powerlaw_rho, linear_rho, *Structure::corr"]}
{"id": "C56", "title": "Structure functions vanish beyond the localization distance", "statement": "corr(p1,p2) = 0 whenever the distance exceeds the localization distance of p1, and corr is non-increasing in horizontal distance within it.", "quantifier": "every pair of points", "why_tests_cant": "continuous domain", "anchors": ["src/api/structure.cpp: localization_distance, corr"]}
{"id": "C57", "title": "Vector and scalar correlations agree", "statement": "corr(p1, [p...]) is element by element corr(p1, p), corr_background likewise; clones behave like the original; CrossValidation gives 0 background correlation within its distance and otherwise the wrapped structure's; MultipleStructure is the product of its components.", "quantifier": "every structure and point list", "why_tests_cant": "every list", "anchors": ["src/api/structure.cpp"]}
{"id": "C58", "title": "Transforms round-trip", "statement": "For every transform (Identity, Log, BoxCox, StartedBoxCox) and every value in its domain, backward(forward(x)) = x; missing values stay missing; forward is strictly increasing; vector overloads act element by element and keep the shape.", "quantifier": "every value and parameter", "why_tests_cant": "continuous domain, parameter special cases", "anchors": ["src/api/transform.cpp"]}
{"id": "C59", "title": "Humidity conversions respect physical bounds", "statement": "relative_humidity is in [0,1]; dewpoint never exceeds temperature for relative humidity <= 1; missing inputs give missing outputs; vector versions are element-wise and throw on size mismatch; table lookups never leave the table.", "quantifier": "all values", "why_tests_cant": "table index arithmetic on a continuous domain", "anchors": ["src/api/humidity.cpp"]}
{"id": "C60", "title": "Pressure reduction: identity, composition, monotonicity", "statement": "pressure(z,z,p,T) = p; reducing from a to b and on to c equals reducing from a to c; the result is proportional to the input pressure and strictly decreasing in the output elevation; sea_level_pressure/qnh at altitude 0 return the input pressure.", "quantifier": "all elevations, pressures and temperatures", "why_tests_cant": "continuous domain", "anchors": ["src/api/pressure.cpp: gridpp::pressure, gridpp::sea_level_pressure", "src/api/qnh.cpp: gridpp::qnh"]}
{"id": "C61", "title": "Wind speed and direction are a polar representation", "statement": "wind_speed >= 0 and its square is the sum of squared components; wind_direction lies in [0, 360) and, with the speed, determines both components; missing components give missing results.", "quantifier": "all components", "why_tests_cant": "continuous domain, quadrant/axis special cases", "anchors": ["src/api/wind.cpp"]}
{"id": "C62", "title": "Probability downscaling counts grid cells correctly", "statement": "downscale_probability yields values in [0,1] (or missing), the probability for 'less than' and 'at least' the same threshold sum to one when no member is missing; mask_threshold_downscale_consensus results are the statistic over the values the mask selects per member.", "quantifier": "every ensemble, threshold, operator", "why_tests_cant": "all ensembles", "anchors": ["src/api/downscale_probability.cpp", "src/api/mask_threshold_downscale_consensus.cpp"]}
{"id": "C63", "title": "local_distribution_correction keeps the background where it cannot correct", "statement": "A cell with missing background, or too few observations, keeps its background value; corrected values are clamped into the range of the mapped observations; no invalid iterator range is formed.", "quantifier": "every configuration", "why_tests_cant": "combinations of quantile limits and observation counts", "anchors": ["src/api/local_distribution_correction.cpp"]}
{"id": "C64", "title": "neighbourhood_search replaces values only from the search window", "statement": "neighbourhood_search: cells not flagged for search keep their value; a searched cell receives either its own value, the value of the best search cell in its window, or the mean over cells in the target range; apply_array of a different size throws.", "quantifier": "every field and window", "why_tests_cant": "all windows and flags", "anchors": ["src/api/neighbourhood_search.cpp"]}
{"id": "C65", "title": "calc_gradient recovers the gradient of a linear relation", "statement": "calc_gradient with LinearRegression returns exactly g in every cell whose window has enough valid pairs with non-constant base and values = a + g*base; MinMax likewise; cells without enough data get the default gradient; the result is finite or default.", "quantifier": "every field and window", "why_tests_cant": "continuous fields", "anchors": ["src/api/calc_gradient.cpp"]}
{"id": "C66", "title": "Parallel loops are schedule independent", "statement": "Every public function that uses OpenMP work-sharing returns the same result for any number of threads and any assignment/order of iterations, because iterations write disjoint outputs and read only data not written in the loop.", "quantifier": "all schedules (permutations and interleavings of iterations)", "why_tests_cant": "tests see a few schedules", "anchors": ["src/api/*.cpp: #pragma omp parallel for", "src/api/gridding.cpp: #pragma omp parallel (no for)"]}
{"id": "C67", "title": "Invalid arguments are reported as catchable exceptions", "statement": "A call with an unsupported argument value raises a C++ exception to the caller and never terminates the process.", "quantifier": "all argument values, all functions", "why_tests_cant": "exceptions thrown inside an OpenMP region terminate the process", "anchors": ["src/api/window.cpp: gridpp::window with Quantile/Unknown", "src/api/neighbourhood.cpp: neighbourhood_brute_force", "src/api/curve.cpp: apply_curve(vec)"]}
{"id": "C68", "title": "Element-wise vector overloads agree with scalar versions", "statement": "dewpoint, relative_humidity, wetbulb, pressure, sea_level_pressure, qnh, wind_speed, wind_direction, apply_curve, interpolate, Transform forward/backward: the vector overload has the size of its inputs, its i-th element is the scalar function of the i-th inputs, and inconsistent sizes throw invalid_argument.", "quantifier": "all vector lengths", "why_tests_cant": "unbounded lengths", "anchors": ["src/api/humidity.cpp", "src/api/pressure.cpp", "src/api/qnh.cpp", "src/api/wind.cpp", "src/api/curve.cpp", "src/api/transform.cpp"]}
{"id": "C69", "title": "corr_points yields a sparse row-wise correlation", "statement": "staticcorr_points has at most max_points non-zero entries per row, all at observations within the localization radius with positive correlation, and they are the largest ones.", "quantifier": "all geometries", "why_tests_cant": "unbounded sets", "anchors": ["src/api/corr_points.cpp"]}
{"id": "C70", "title": "SMART downscaling averages over the most similar points", "statement": "smart(...) gives the mean of at most num input values, those with the highest structure-function correlation, and never reads outside its lists.", "quantifier": "all grids", "why_tests_cant": "empty neighbour sets", "anchors": ["src/api/smart.cpp"]}
{"id": "C71", "title": "RandomChoice picks a valid value; Quantile and Unknown are refused", "statement": "calc_statistic(array, RandomChoice) returns, whatever rand() yields, one of the valid values of the array; every valid value can be returned; the result is missing exactly when no value is valid. Statistics Quantile and Unknown throw for every array.", "quantifier": "every array and every value of rand()", "why_tests_cant": "all random outcomes on all arrays", "anchors": ["src/api/util.cpp: gridpp::calc_statistic(const vec&, Statistic)"]}
{"id": "C72", "title": "calc_distance is a symmetric nonnegative distance consistent with the tree's straight-line distance", "statement": "KDTree::calc_distance is symmetric, nonnegative and 0 between identical finite locations, and NaN with a missing coordinate. In Cartesian coordinates it equals the straight-line distance used by the tree. In geodetic coordinates it lies in [0, pi*R], the tree's straight-line distance is the chord 2R sin(d/2R), and hence ordering locations by great-circle distance is the same as ordering them by straight-line distance.", "quantifier": "every pair or triple of locations", "why_tests_cant": "continuum of locations", "anchors": ["src/api/kdtree.cpp: KDTree::calc_distance, KDTree::calc_straight_distance", "src/api/util.cpp: gridpp::convert_coordinates"]}
{"id": "C73", "title": "Bilinear interpolates exactly at every location inside a convex cell", "statement": "For every location inside a convex cell with four valid corner values, bilinear does not fail and returns the bilinear interpolation of the corner values at the coordinates of that location.", "quantifier": "all convex cells, all orientations of the grid, all locations inside", "why_tests_cant": "several algebraic cases (parallel sides, sign of the orientation, tolerance for parallelograms) that only special geometries reach", "anchors": ["src/api/bilinear.cpp: calcGeneral, calcParallelogram, bilinear"]}
{"id": "C74", "title": "The metric optimizer returns thresholds inside the forecast range that beat the range ends", "statement": "get_optimal_threshold returns missing, or a threshold between the smallest and the largest forecast whose score is above 0.0001 and not within 0.001 of the score at either end of the forecast range; metric_optimizer_curve returns one point per threshold with a valid optimum, in order, both outputs of equal size, and throws invalid_argument on a size mismatch.", "quantifier": "all references, forecasts, thresholds and metrics; every behaviour of Brent's method that stays in the interval", "why_tests_cant": "external minimizer, unbounded data, sign errors only visible in special data", "anchors": ["src/api/metric_optimizer.cpp: gridpp::get_optimal_threshold, gridpp::metric_optimizer_curve"]}
{"id": "C75", "title": "neighbourhood_score is the textbook score of the pairs in the square around each cell", "statement": "For a forecast of the size of the grid, a positive half width and a known metric, neighbourhood_score returns a field of the size of the grid; the value at each cell is the textbook score (missing where undefined) of the contingency table of all cells of the clipped square around it that have a valid forecast and a valid observation, where the observation of a cell is the mean of the valid observations whose nearest cell it is. A forecast of another size, a half width that is not positive and a wrong number of observations raise invalid_argument.", "quantifier": "all grids, points, observations, forecasts, half widths, thresholds and metrics", "why_tests_cant": "combination of nearest-cell gridding, four smoothed indicator fields and scores of fractions instead of counts; any size and any pattern of missing values", "anchors": ["src/api/neighbourhood_score.cpp: gridpp::neighbourhood_score", "src/api/gridding.cpp: gridpp::gridding_nearest", "src/api/metric_optimizer.cpp: gridpp::calc_score"]}
{"id": "C76", "title": "EnSI with extrapolation is the Kalman update with the statistics of the ensemble", "statement": "For ensembles in which a member is either without missing values or missing at the observations, at least two members without missing values, non-zero observation sigmas and extrapolation allowed, optimal_interpolation_ensi moves the ensemble mean at each output point by the Kalman gain times the innovations of the selected observations, where the gain is computed from the ensemble covariances and error variances sigma^2/rho; the gain is unique; the analysis variance is the background variance minus gain times covariance and never larger than before; members with missing values and output points without a usable observation are unchanged.", "quantifier": "all grids and point sets, ensembles, observations, structure functions with positive correlations, numbers of members, max_points", "why_tests_cant": "the transform uses the eigen-decomposition of an n x n matrix in the space of the members; equality with the Kalman formulas in observation space holds for all sizes only by matrix algebra", "anchors": ["src/api/oi_ensi.cpp: gridpp::optimal_interpolation_ensi (both overloads)"]}
{"id": "C77", "title": "EnSI without extrapolation moves no member past its own innovations", "statement": "Without extrapolation, optimal_interpolation_ensi moves every member without missing values by the increment of the Kalman update, moved to the nearest number between min(0, smallest) and max(0, largest) of the innovations of that member at the selected observations.", "quantifier": "all grids and point sets, ensembles, observations, structure functions, max_points", "why_tests_cant": "the filter indexes a matrix of observations times members with a single subscript, which is right only for one selected observation; a test with one observation cannot tell", "anchors": ["src/api/oi_ensi.cpp: gridpp::optimal_interpolation_ensi (both overloads)"]}
{"id": "C78", "title": "ensi_multi_ebesc is optimal interpolation member by member", "statement": "For ensembles whose complete members are the first n, ratios and observations that are numbers where used, optimal_interpolation_ensi_multi_ebesc gives every member e < n at every output point the background plus the background ratio times the weighted sum of that member's own innovations, with the weights that solve the optimal-interpolation system of the selected observations (correlations of the structure function plus the observation ratios on the diagonal); without extrapolation the increment is moved to the nearest number between min(0, smallest) and max(0, largest innovation of that member); members from n on are unchanged; if the system of some output point is singular the call raises runtime_error.", "quantifier": "all grids and point sets, ensembles, ratios, structure functions, max_points, both settings of allow_extrapolation", "why_tests_cant": "equality of a matrix computation with the solution of a linear system, for any number of observations, members and output points; the filter has five branches per member", "anchors": ["src/api/oi_ensi_multi.cpp: gridpp::optimal_interpolation_ensi_multi_ebesc (both overloads)"]}
{"id": "C79", "title": "ensi_multi_ebe uses the correlations of the second ensemble", "statement": "optimal_interpolation_ensi_multi_ebe is optimal interpolation member by member as in C78, where the correlations of the structure function are multiplied by the correlations over the members of the second ensemble (0 where a standard deviation is not above 0.0013).", "quantifier": "all grids and point sets with at least as many output points as observations, pairs of ensembles, ratios, structure functions, max_points, both settings of allow_extrapolation", "why_tests_cant": "the normalisation of the correlations only shows for ensembles of every size together with the exact value of a correlation", "anchors": ["src/api/oi_ensi_multi.cpp: gridpp::optimal_interpolation_ensi_multi_ebe (both overloads)"]}
{"id": "C80", "title": "sea_level_pressure is the reduction formula of WMO on either side of 50 m", "statement": "For temperatures (and dew points) above 35.85 K and a relative humidity in [0, 1], sea_level_pressure gives the hypsometric formula for stations at 50 m or higher and the linear formula with the virtual temperature below 50 m; from 50 m up the result is proportional to the station pressure, above it, and strictly increasing with altitude; the two formulas agree at 50 m.", "quantifier": "all pressures, altitudes, temperatures, humidities and dew points", "why_tests_cant": "continuous domain; the boundary at 50 m is a single point", "anchors": ["src/api/pressure.cpp: gridpp::sea_level_pressure"]}
{"id": "C81", "title": "ensi_multi_utem is an update in units of the standard deviation", "statement": "optimal_interpolation_ensi_multi_utem, with extrapolation: at each output point the mean of the complete members moves by bratio times the gain times the innovations of the mean of the first ensemble, and their variance becomes the variance times (1 - gain times correlations), never larger than before, where the gain is the unique solution with the correlations over the members of the second ensemble (0 where a standard deviation is not above 0.0013) and the error variances ratio / rho. Where these correlations are 0 the ensemble therefore keeps its mean and spread. Without extrapolation each member's increment is that increment moved to the nearest value allowed by the innovations of that member.", "quantifier": "all grids and point sets with at least as many output points as observations, pairs of ensembles with at least two complete members, positive ratios, structure functions, max_points, both settings of allow_extrapolation", "why_tests_cant": "the gain is defined through the inverse and the square root of a matrix; the variance identity holds for every ensemble and observation set at once and a sample shows neither the normalisation of the correlations nor the collapse at points where the second ensemble is constant", "anchors": ["src/api/oi_ensi_multi.cpp: gridpp::optimal_interpolation_ensi_multi_utem (both overloads)"]}
{"id": "C82", "title": "gamma_inv is the quantile function of the gamma distribution", "statement": "gamma_inv(levels, shape, scale) with vectors of one size: invalid_argument exactly if some level is not a number in [0, 1] or some shape or scale is not a positive number; otherwise element i is the value at or above 0 where the distribution function of the gamma distribution with shape i and scale i reaches level i, strictly increasing in the level.", "quantifier": "all vectors of levels, shapes and scales", "why_tests_cant": "the accepted domain contains the end point 1, where the quantile is infinite; the behaviour of the library there (an exception inside a parallel region) is not seen by tests on interior levels", "anchors": ["src/api/distribution.cpp: gridpp::gamma_inv"]}
{"id": "C83", "title": "get_neighbourhood_thresholds of an ensemble covers the range of all members", "statement": "For a rectangular ensemble field with a valid value and at least two thresholds asked for, the thresholds are finite, sorted, values that some member has somewhere, at most as many as asked for, and run from the minimum to the maximum over cells and members; if there are no more valid values than that, they are all the distinct values. No thresholds asked for: invalid_argument; an empty field or one without valid values: no thresholds.", "quantifier": "all ensemble fields, all numbers of thresholds", "why_tests_cant": "unbounded sizes; missing values may be at any place and ties shift the selection", "anchors": ["src/api/neighbourhood.cpp: gridpp::get_neighbourhood_thresholds (vec3)"]}
{"id": "C84", "title": "class Field of the client is a three dimensional array", "statement": "A Field is created exactly for sizes that are not negative and has the fill value everywhere. Inside the sizes every coordinate can be read, a write changes what is read there and nowhere else; outside the sizes the access stops the program. The members of a grid point are the values read there in order. Two Fields compare equal exactly if they have the same sizes and equal values.", "quantifier": "all sizes, coordinates, values, sequences of writes", "why_tests_cant": "that no two coordinates share a slot of the flat vector is arithmetic over all sizes", "anchors": ["src/client/Field.cpp: Field::Field, Field::operator(), Field::getIndex, Field::operator=="]}
{"id": "C85", "title": "accumulate and deaccumulate are the running sum and the difference over a window", "statement": "The calibrator accumulate gives at time t the sum of the values of times 1 to t (0 at the first time), missing if one of them is missing. deaccumulate with a window of w time steps gives missing at the first w times and from then on the value minus the value w steps before, missing if one of them is missing. Deaccumulating by one step what accumulate gives returns the values from the second time on, up to the first missing one.", "quantifier": "all series of fields, all windows", "why_tests_cant": "unbounded time; the missing value is the number -999, which sums of ordinary values can reach", "anchors": ["src/client/Calibrator/Accumulate.cpp: CalibratorAccumulate::calibrateCore", "src/client/Calibrator/Deaccumulate.cpp: CalibratorDeaccumulate::calibrateCore"]}
{"id": "C86", "title": "shuffle gives calibrated members the rank order of the raw members", "statement": "Calibrator::shuffle(before, after), with equally many values and none missing, leaves a permutation of after in which a member that was below another one before is not above it; otherwise after is unchanged.", "quantifier": "all ensembles of any size, with ties, for any outcome of the unstable sort", "why_tests_cant": "a permutation property over all sizes; std::sort may order equal values in any way", "anchors": ["src/client/Calibrator/Calibrator.cpp: Calibrator::shuffle"]}
{"id": "C87", "title": "sort puts the members in ascending order and missing members last", "statement": "The calibrator sort leaves at every time and grid point the members that are not missing in ascending order, followed by missing values.", "quantifier": "all fields with any number of members and any missing members", "why_tests_cant": "unbounded sizes; missing values are sorted as the number -999 and then moved", "anchors": ["src/client/Calibrator/Sort.cpp: CalibratorSort::calibrateCore"]}
{"id": "C88", "title": "Point-wise client calibrators qc, cloud, phase, threshold", "statement": "qc clamps every value present to [min,max] and leaves missing values alone (false when min > max: the order of the tests decides); cloud raises cloud cover to the given value exactly where precipitation is positive and cloud cover is below it; phase gives 0 without precipitation (at most 0.2), 3 (snow) at or below the snow threshold, 2 at or below the rain threshold, else 1, and missing if temperature or precipitation is missing; threshold gives the value that belongs to the first threshold not exceeded. No other cell changes.", "quantifier": "all field sizes, times, thresholds and values including missing and non-finite", "why_tests_cant": "tests use a handful of values; boundary equality, missing combinations and inverted bounds are not covered", "anchors": ["src/client/Calibrator/Qc.cpp:18-46", "src/client/Calibrator/Cloud.cpp:12-46", "src/client/Calibrator/Phase.cpp:18-62", "src/client/Calibrator/Threshold.cpp"]}
{"id": "C89", "title": "Util::calculateStat computes the named statistic of the values present", "statement": "For mean, sum, std, min, median, max and quantile (level in [0,1]) the result is that statistic of the values that are finite and not -999; it is -999 if there are none. A quantile level outside [0,1], including the default -999, or NaN, is undefined behaviour as soon as two values are present. The result can coincide with the missing value although values are present.", "quantifier": "all arrays of any length, with any mix of missing and non-finite values, all levels", "why_tests_cant": "quantile interpolation, the shifted variance and index bounds have to hold for every length and level", "anchors": ["src/client/Util.cpp:339-428"]}
{"id": "C90", "title": "Window calibrator", "statement": "Each value becomes the statistic of the values present among the times in its window of the original series: the `length` times ending at t (before) or with (length-1)/2 times before t; missing where the window is cut and edgePolicy is missing, where keepMissing is set and a value in the window is missing, or where no value is present. A length below 1 and a quantile level outside [0,1] are refused.", "quantifier": "all window lengths, series lengths, field sizes, statistics, options and values", "why_tests_cant": "off-by-one at the edges for every length and parity, and all option combinations", "anchors": ["src/client/Calibrator/Window.cpp:27-105"]}
{"id": "C91", "title": "Client KDTree returns the nearest grid point", "statement": "For every place with coordinates, the KD-tree built from a grid returns the indices of a grid point with coordinates at minimal distance; places without coordinates get -999; a grid without any valid point is refused. True whenever the distance to a section line measured along the own latitude or longitude bounds the distance to everything beyond it; on the sphere that holds for sections in latitude but not for sections in longitude, so the search can miss the nearest point (date line).", "quantifier": "all grids and places, any order in which std::sort leaves equal keys", "why_tests_cant": "correctness of pruning depends on every tree shape and on ties; the failing case needs a grid across the date line or at high latitude", "anchors": ["src/client/KDTree.cpp:29-234", "src/client/Util.cpp:107-142"]}
{"id": "C92", "title": "Neighbours of one grid in another (client Downscaler)", "statement": "Downscaler::getNearestNeighbour and getNearestNeighbourBruteForce give for every place of the target grid the indices of a source grid point at minimal distance, the scan the first such point in row order; places without coordinates get -999. If the grids are identical every place gets its own indices.", "quantifier": "all grids of any size with any missing coordinates, any nonnegative distance", "why_tests_cant": "unbounded grids, ties, missing coordinates, shortcut for identical grids", "anchors": ["src/client/Downscaler/Downscaler.cpp: getNearestNeighbour, getNearestNeighbourBruteForce"]}
{"id": "C93", "title": "Nearest neighbour downscaler of the client", "statement": "Each output value is the value of the nearest input grid point at the same time and member, missing where there is no neighbour; for a list of places downscaleVec gives the same value. Files with different numbers of times are refused. downscaleVec aborts instead of giving the missing value where the neighbour is missing.", "quantifier": "all field sizes, numbers of times and members, all tables of neighbours", "why_tests_cant": "unbounded sizes; missing neighbours only occur with incomplete coordinates", "anchors": ["src/client/Downscaler/NearestNeighbour.cpp", "src/client/Downscaler/Downscaler.cpp: downscale"]}
{"id": "C94", "title": "Coordinates of a client file", "statement": "setLats stores latitudes in [-90,90]; setLons stores for each longitude in [-360,360] an equal angle in [-180,180]. Coordinates of another size than the grid are refused, coordinates out of range (and therefore missing ones) end the program. A longitude of exactly zero is undefined behaviour (0/0 converted to int).", "quantifier": "all grids of any size, all coordinates", "why_tests_cant": "the value zero divides zero by zero, and the conversion of NaN to int happens to work on common hardware", "anchors": ["src/client/File/File.cpp: File::setLats, File::setLons"]}
{"id": "C95", "title": "File tags and the neighbour cache are never stale", "statement": "At any two moments of an execution two files with the same tag have the same coordinates. Therefore neighbours from the cache are always those that a new search would give for the present coordinates. The search with the tree and the scan share the cache, so with both in use a search can return the table of the other one.", "quantifier": "all sequences of opening files, setting latitudes and longitudes, clearing the cache and looking up neighbours", "why_tests_cant": "a state machine with unbounded histories; staleness needs a particular interleaving", "anchors": ["src/client/File/File.cpp: File::setLats, File::setLons, File::createNewTag", "src/client/Downscaler/Downscaler.cpp: isCached, addToCache, getFromCache"]}
{"id": "C96", "title": "The pressure downscaler moves the pressure of the nearest point to the elevation of the output point", "statement": "Each member of each output point is p*exp(-1.21e-4*(z-z0)), where p is the value of the same member at a nearest input point, z0 the elevation there and z the elevation of the output point. With an elevation missing it is p itself; with only the pressure missing it is the missing value. A positive pressure falls strictly with elevation, and moving it to another elevation and back gives it again. A point without a neighbour gets the missing value (false of the code: the assertion ends the program).", "quantifier": "all grids, elevations, fields, sizes, numbers of members and times, all sorts used to build the tree", "why_tests_cant": "unbounded grids and all patterns of missing values", "anchors": ["src/client/Downscaler/Pressure.cpp: DownscalerPressure::downscaleCore, calcPressure"]}
{"id": "C97", "title": "The upscaler gives each output point the statistic of the input points nearest to it", "statement": "Each input point with coordinates contributes to exactly one output point, a nearest one; input points without coordinates contribute to none. The value of an output point is the chosen statistic (mean, sum, min, median, max, std, quantile) of the values present among its input points, the missing value if nothing is present.", "quantifier": "all grids, fields, sizes, statistics and quantile levels in [0, 1]", "why_tests_cant": "a partition of unbounded grids; every pattern of missing values", "anchors": ["src/client/Downscaler/Upscale.cpp: DownscalerUpscale::downscaleCore"]}
{"id": "C98", "title": "The smart downscaler averages the points with the most similar elevations", "statement": "If the elevation of the output point is missing or the nearest point is within the tolerance, only the nearest point is used. Otherwise at most num points from at most radius rows and columns around it are used, each once, those with the least absolute differences of elevation. Each member is the mean of the values present there, the missing value if there are none. Points without a neighbour get the missing value (false of the code: reads outside of the elevations).", "quantifier": "all grids, elevations, fields, radii, numbers of points and tolerances", "why_tests_cant": "unbounded neighbourhoods with ties and missing elevations, any order of equal elements after the sort", "anchors": ["src/client/Downscaler/Smart.cpp: DownscalerSmart::downscaleCore, getSmartNeighbours"]}
{"id": "C99", "title": "The elevation gradient of the client is the regression slope in the neighbourhood, within its bounds", "statement": "DownscalerGradient::calcElevGradient returns the number closest to q within the bounds minElevGradient, maxElevGradient that are given, where q is the constant gradient if there is one; otherwise the slope of the least squares regression of the value (or its logarithm) on the elevation over the grid points at most elevRadius rows and columns from the centre that have an elevation and a value and are not known to have a land area fraction below minLafForElevGradient, if there are at least minNumPoints of them, their elevations differ by at least minElevDiff somewhere and are not all the same; otherwise the default gradient.", "quantifier": "All grids, fields, members, centres and options with numbers as thresholds; any pattern of missing values.", "why_tests_cant": "The claim is about every set of elevations and values; it fails only where the sum of the squared elevations is the square of their sum, e.g. one point above sea level among points at 0, which tests with generic elevations do not meet.", "anchors": ["src/client/Downscaler/Gradient.cpp:382-461"]}
{"id": "C100", "title": "The land area fraction gradient of the client is the weighted mean of the gradients between the extreme points", "statement": "DownscalerGradient::calcLafGradient returns the weighted mean, over the search radii, of the gradient between a point with the least and a point with the largest land area fraction within the radius (the value of the latter moved to the elevation of the former with the elevation gradient), over those radii for which the fractions differ by at least minLafDiff, both elevations are known and at least the share minFracSeaPoints of the points is sea; it returns the missing value if there is no such radius.", "quantifier": "All grids, fields, members, centres, elevation gradients, numbers of radii, positive weights, any pattern of missing values.", "why_tests_cant": "The extremes are carried over from radius to radius, so the claim depends on the order of the radii and on ties between points; it has to be shown for every list of radii.", "anchors": ["src/client/Downscaler/Gradient.cpp:283-381"]}
{"id": "C101", "title": "The gradient downscaler of the client moves the value of the nearest neighbour to the elevation and land area fraction of the output point", "statement": "With downscaler=nearestNeighbour each member of each output point gets the value b of the same member at its nearest input point plus the elevation difference times the elevation gradient (or times the exponential of that product with logTransform) plus the difference of the (averaged) land area fractions times the fraction gradient, each part only if what it needs is known; b itself if that is outside the domain of the variable; missing values stay missing; with saveGradient the gradient itself. With limit a value outside of the range of the neighbourhood is brought into it and other values are not changed. With downscaler=bilinear the same holds with the interpolations of value, elevation and land area fraction, made in the same cell at the same coordinates, in place of those of the nearest input point; the gradients are still those at the nearest input point.", "quantifier": "All grids, time steps, fields, members, options and patterns of missing values.", "why_tests_cant": "It concerns every neighbourhood and every order of the values in it; the fault in limit shows only for neighbourhoods whose values decrease.", "anchors": ["src/client/Downscaler/Gradient.cpp:67-216"]}
{"id": "C102", "title": "Util::split returns the words of a text", "statement": "For every text and every set of delimiters Util::split terminates without reading outside the text and returns the longest stretches without a delimiter, in order; no word is empty, and the words put together are the text without its delimiters.", "quantifier": "All texts and delimiter sets of any length.", "why_tests_cant": "Termination and the position arithmetic with npos must hold for every arrangement of delimiters.", "anchors": ["src/client/Util.cpp:239-260"]}
{"id": "C103", "title": "Class Options is a map from keys to values", "statement": "Options keeps one non-empty value per non-empty key: adding a pair gives the key the new value and leaves every other key, empty keys and values are ignored; parsing a text gives each key the last value given to it, 1 for a word without =; getValue, hasValue and getRequiredValue find exactly the keys present and give the value; getValues gives the parts between commas; toString makes a text from which the constructor rebuilds the object; operator== holds if and only if the pairs are the same; check holds if and only if every key has been read.", "quantifier": "All sequences of additions, all texts, all keys.", "why_tests_cant": "The invariant (unique keys) is kept by every sequence of operations; equality and reconstruction concern all objects and fail for values with white space.", "anchors": ["src/client/Options.cpp", "src/client/Options.h:49-104"]}
{"id": "C104", "title": "Dates and times of the client follow the calendar", "statement": "getDate gives the calendar date of a unix time and getTime its time of the day; getUnixTime gives the unix time of a date and a (possibly negative) time and refuses dates that do not exist; date and time of a unix time give back that unix time; calcDate gives the date as many days later as whole days fit in the added hours.", "quantifier": "All unix times and dates of the years 1400 to 9999, all times of day, all numbers of hours.", "why_tests_cant": "Leap years, centuries and the truncating division of negative times make many cases over 8600 years; the fault before 1970 shows only for negative times.", "anchors": ["src/client/Util.cpp:164-195", "src/client/Util.cpp:222-237"]}
{"id": "C105", "title": "Interpolation in the client", "statement": "Util::interpolate of the client on a sorted curve: constant outside the curve, linear between neighbouring knots, the mean of the two end ordinates at a run of equal knots, within the range of the ordinates, non-decreasing when the ordinates are; strictly inside the curve it agrees with gridpp::interpolate; knots that are missing are skipped.", "quantifier": "for all finite sorted curves of any length and all x; for all inputs in the error cases", "why_tests_cant": "The piecewise rule and monotonicity concern every curve and every pair of arguments; ties at the ends and missing first knots are corner cases that need searching for.", "anchors": ["src/client/Util.cpp:523-550", "src/client/Util.cpp:641-679"]}
{"id": "C106", "title": "Quantile mapping in the client", "statement": "The qq calibrator of the client replaces each valid member by the value of the curve given by the parameters and extra points (linear inside, continued by the chosen slope outside), sets missing members to -999, leaves points with missing parameters as they are and keeps the order of members; training gives the sorted observations and ensemble means of the usable cases, or their quantiles.", "quantifier": "for all field sizes, times, members, curves of any length, extra points, policies and training sets", "why_tests_cant": "Holds for curves and training sets of every length, every policy and every value; the failing cases (one point with policy zero, equal forecasts at the end, training with quantiles from one case) are rarely in a test.", "anchors": ["src/client/Calibrator/Qq.cpp:39-158", "src/client/Calibrator/Qq.cpp:160-233", "src/client/Calibrator/Qq.cpp:251-269"]}
{"id": "C107", "title": "Parameters stored by place and time in the client", "statement": "A parameter file returns, for a place it holds and a time, exactly what was last stored there (nothing if nothing was); times beyond the last use the last time, or wrap round when cycling, and a file with one time is used for all times; parameters for no place come from the whole file; with the search tree computed once, a place not held gets the parameters of the nearest place that has parameters for that time; getNumParameters is the common number of parameters.", "quantifier": "for all sequences of stored settings of any length, all places and times", "why_tests_cant": "The store is an arbitrary history of writes with overwriting, gaps in time and ties in place; the nearest-place rule ranges over all sets of places and the failing cases need a second call or an empty file.", "anchors": ["src/client/ParameterFile/ParameterFile.cpp:21-35", "src/client/ParameterFile/ParameterFile.cpp:51-202", "src/client/ParameterFile/ParameterFile.cpp:208-257", "src/client/Location.cpp", "src/client/Parameters.cpp"]}
{"id": "C108", "title": "Regression in the client", "statement": "The regression calibrator replaces each valid member by the polynomial of the member, or by the weighted sum of the predictors plus the constant, and leaves missing members missing; training gives, from the usable cases, the line (or the line through the origin, or the constant) with the least square error.", "quantifier": "for all field sizes, times, members, numbers of parameters and predictors, and training sets of any length", "why_tests_cant": "Least squares is optimality over all lines for all training sets; polynomials and predictor lists have any length; missing predictors and equal forecasts are corner cases.", "anchors": ["src/client/Calibrator/Regression.cpp:16-102", "src/client/Calibrator/Regression.cpp:104-170"]}
{"id": "C109", "title": "Wind direction factor and QNH in the client", "statement": "The windDirection calibrator multiplies each value by the four-term trigonometric series of the direction with the nine parameters, 0 where the series is negative, and leaves values with missing direction as they are; the qnh calibrator stores where pressure and elevation are present the same QNH as the library, which for positive pressure is the unique sea level pressure of the standard atmosphere with that pressure at that elevation, increasing in both and equal to the pressure at elevation 0; elsewhere the value stays.", "quantifier": "for all field sizes, times, members, directions, parameters, pressures and elevations", "why_tests_cant": "The identities hold for every direction and coefficient set and every pressure and elevation; missing parameters and missing values are the cases that fail.", "anchors": ["src/client/Calibrator/WindDirection.cpp:15-56", "src/client/Calibrator/WindDirection.cpp:72-89", "src/client/Calibrator/Qnh.cpp:10-39", "src/client/Calibrator/Qnh.cpp:48-72"]}
{"id": "C110", "title": "Mask, override and altitude in the client", "statement": "mask removes exactly the values whose grid point is outside of the radius of every place (or, without keep, inside of that of some place) at the time; override writes at each grid point the value of the last place that covers it (value present, nearest grid point not at the border, box of the radius, elevation difference) and leaves all other values; altitude gives each grid point the elevation of the nearest place with parameters.", "quantifier": "for all grids, places, radii, boxes, elevations, times and members", "why_tests_cant": "Which places cover which grid points depends on arbitrary geometry and on the order of places; the error of the mask needs radii that shrink with time.", "anchors": ["src/client/Calibrator/Mask.cpp:13-75", "src/client/Calibrator/Override.cpp:15-76", "src/client/Calibrator/Altitude.cpp:10-30"]}
{"id": "C111", "title": "Neighbourhood calibrator of the client", "statement": "With a radius that is not negative, each value becomes the statistic of the numbers present in the square of that radius around it, whether computed from sums of rectangles, from columns or value by value; where nothing is present it becomes missing, or stays if sums are used; with the approximation and no missing value it is between two numbers of the box. The constructor refuses a negative radius and a missing quantile level or one outside [0, 1].", "quantifier": "for all field sizes, radii, statistics, times, members and values", "why_tests_cant": "The three ways of computing agree only if the corner arithmetic is right for every size, radius and pattern of missing values; the radius from a parameter file is not checked.", "anchors": ["src/client/Calibrator/Neighbourhood.cpp:7-39", "src/client/Calibrator/Neighbourhood.cpp:41-60", "src/client/Calibrator/Neighbourhood.cpp:70-288"]}
{"id": "C112", "title": "Humidity diagnosed by the client", "statement": "Where both inputs are present the dew point, relative humidity and wet-bulb temperature are those of the library (dew point not above the temperature, humidity in (0, 1], wet-bulb temperature between dew point and temperature), and the wet-bulb temperature is missing for missing pressure, dry air or a temperature up to 30.11 K; where an input is missing the old value stays; a variable that is not in the file ends the program; an unknown word after compute changes nothing.", "quantifier": "for all field sizes, times, members, temperatures, humidities, pressures and elevations", "why_tests_cant": "The agreement with the library and the bounds hold for every finite input, and the cases depend on patterns of missing values.", "anchors": ["src/client/Calibrator/DiagnoseHumidity.cpp:25-112", "src/client/Calibrator/DiagnoseHumidity.cpp:181-199"]}
{"id": "C113", "title": "Wind diagnosed by the client", "statement": "Where both inputs are present the components are minus the speed times sine and cosine of the direction, the speed is the length of the vector and the direction is that of the library, in [0, 360); where an input is missing the old value stays; going from positive speed and direction in [0, 360) to components and back gives the same speed and the same direction up to 180 degrees and one less by below a millionth of a degree above; an input that is not in the file ends the program, and an unknown word after compute changes nothing.", "quantifier": "for all field sizes, times, members, speeds, directions and components", "why_tests_cant": "The round trip is a statement about all real speeds and directions, and its error comes from the decimal constant used for pi.", "anchors": ["src/client/Calibrator/DiagnoseWind.cpp:24-115"]}
{"id": "C114", "title": "Coastal correction of the client", "statement": "Each value becomes a + b times the value (or that at the first point with the least land in the square around it) + c times the gradient between the points with the least and the most land of the square, which is 0 unless their land fractions differ by more than minLafDiff; the values used are those of the forecast; a missing value in or out, a parameter file without parameters and one that is not spatial end the program.", "quantifier": "for all field sizes, times, members, radii, land fractions in [0, 1], parameters and orders in which the grid points are handled", "why_tests_cant": "The result depends on the order in which the threads handle the rows, because the field is changed while it is read.", "anchors": ["src/client/Calibrator/Coastal.cpp:18-94"]}
{"id": "C115", "title": "Interpolation in one cell by the client", "statement": "In a cell whose sides cross with the orientation the formulas are made for, or with parallel sides, a place with the cell coordinates alpha and beta gets the bilinear interpolation of the four corners at the nearest coordinates in the unit square if they exceed it by no more than the tolerance (0.20 below, 0.17 above for s and t), and otherwise the program ends; the result lies between the least and the greatest corner; corners get their own value.", "quantifier": "for all cells, places and values at the corners", "why_tests_cant": "The client keeps only one root of the quadratic equations of the inverse interpolation; whether it is the right one depends on the orientation of the cell, a condition on all quadrilaterals.", "anchors": ["src/client/Downscaler/Bilinear.cpp:31-74", "src/client/Downscaler/Bilinear.cpp:348-453"]}
{"id": "C116", "title": "Bilinear downscaler of the client", "statement": "Every output point gets either the members of its nearest neighbour or, in a cell of the grid with this neighbour as a corner, the interpolation of the members with the same coordinates for all members, missing if one of the corners is; on grids with constant rows and columns places inside get the interpolation in a cell that contains them and places outside the nearest value; all indices are inside the grid; fields and vectors are handled alike.", "quantifier": "for all grid sizes, coordinates, places, members and values", "why_tests_cant": "Rows and columns may be stored in either direction and the search has eight cases for the edges of the grid; one of them tests the wrong index, which only matters for grids with more rows than columns and columns stored from east to west.", "anchors": ["src/client/Downscaler/Bilinear.cpp:13-29", "src/client/Downscaler/Bilinear.cpp:76-347", "src/client/Downscaler/Bilinear.cpp:455-501"]}
{"id": "C117", "title": "Covariances of kriging are a proper correlation function", "statement": "calcCovar of two places with coordinates and elevation is 0 from the radius and from the greatest elevation difference on, otherwise the product of the Cressman or Barnes functions of distance and elevation difference. It is symmetric, in [0, 1], 1 at the same place, and never increases with the distance or the elevation difference. The matrix of the stations is symmetric with 1 on the diagonal and 0.828 times the covariance elsewhere.", "quantifier": "for all options with positive scale, all places, all distances, any number of stations, both kinds of function", "why_tests_cant": "The tests compare a few covariances for one set of options; monotony, symmetry and range concern every pair of places.", "anchors": ["src/client/Calibrator/Kriging.cpp:391-425", "src/client/Calibrator/Kriging.cpp:187-211"]}
{"id": "C118", "title": "Kriging interpolates the corrections of the stations with weights that solve the kriging equations", "statement": "Each value at a grid point is corrected by the sum of the corrections of the stations with weights that solve matrix * weights = covariances with the grid point. Without a near station, or if the sum is missing, the value is unchanged. With cross validation the nearest station has no influence. With an auxiliary variable the correction of a member is multiplied by its weight.", "quantifier": "for all numbers of stations, grid sizes, members and times, all four operators, all matrices for which the inverse is a right inverse", "why_tests_cant": "The tests use a handful of stations and one grid; the errors (sign for division, index for cross validation, weights that compound) need combinations of options they do not have.", "anchors": ["src/client/Calibrator/Kriging.cpp:92-389"]}
{"id": "C119", "title": "The trained correction of kriging removes the mean error", "statement": "Over the cases with an observation and at least one member, the trained bias (or factor) makes the sum of the corrected ensemble means that of the observations; the additive one has the least sum of squared errors. Without such a case no correction is made.", "quantifier": "for all training data", "why_tests_cant": "Optimality among all biases is a statement about infinitely many alternatives; the tests do not train without data with the operator multiply.", "anchors": ["src/client/Calibrator/Kriging.cpp:427-474"]}
{"id": "C120", "title": "The fields of a file behave like an array", "statement": "Whatever sequence of reading fields, changing them through the returned pointer, replacing them (addField), creating variables and clearing is performed on a file, reading a variable at a time gives the last field stored there since the last clear, otherwise what is on disk, otherwise missing values. Pointers handed out for one variable and time stay the same and are shared with no other. A time outside the file is refused.", "quantifier": "for all files, all sequences of operations of any length, all variables and times", "why_tests_cant": "The cache is a state machine; tests try a few sequences, and none adds a field of a new variable at one time before asking for another time.", "anchors": ["src/client/File/File.cpp:60-137", "src/client/File/File.cpp:156-208", "src/client/File/File.cpp:375-382"]}
{"id": "C121", "title": "A variable takes its properties from the options", "statement": "A variable made from options has the name, units, standard name, minimum, maximum and level given there and otherwise missing ones; adding options to a variable overrides exactly the properties that are given.", "quantifier": "for all options and variables", "why_tests_cant": "All combinations of present and absent keys; no test gives a minimum and a maximum that differ to add.", "anchors": ["src/client/Variable.cpp:5-37", "src/client/Variable.cpp:81-105", "src/client/Options.h:49-73"]}
{"id": "C122", "title": "The zero-adjusted gamma law of zaga is a distribution with the given predictors", "statement": "For any eight parameters and predictors (mean at least 0, fraction in [0,1]) getP0 is the logistic function of the fourth to eighth parameters, getCdf is 0 below 0, P0 at 0 and P0 + (1 - P0) F above, with F the gamma law of mean mu and standard deviation sigma times mu; getInvCdf is its inverse: 0 for levels up to P0, the amount of that probability above, nondecreasing in the level; missing predictors, parameters and levels outside of [0,1) give missing values.", "quantifier": "for all parameters, predictors, levels and amounts and all gamma families", "why_tests_cant": "The law holds for a continuum of parameters; the tests compare a few numbers.", "anchors": ["src/client/Calibrator/Zaga.cpp:243-353", "src/client/Calibrator/Zaga.cpp:384-399", "src/client/Util.cpp:261-271"]}
{"id": "C123", "title": "The calibrator zaga replaces members by quantiles and sets the probability of precipitation", "statement": "Without popVariable every ensemble is replaced by the quantiles of the levels (e + 1/2) / E of the law of its predictors in the order of the raw members, so the member with k below it gets the quantile of level (k + 1/2) / E; a missing member leaves the ensemble as it is. The result at a grid point depends on the raw values of its neighbours alone. With popVariable precipitation is kept and the probability of precipitation is that of exceeding the threshold, missing if something needed is missing or the 6h window is not complete; the quantile fields get the quantiles of their levels.", "quantifier": "for all fields, grid sizes, numbers of members and times, parameters and options", "why_tests_cant": "Depends on all values in the window and on the order of the loops; the tests use a single grid point without neighbours and no missing values.", "anchors": ["src/client/Calibrator/Zaga.cpp:47-241"]}
{"id": "C124", "title": "The calibrator gaussian gives normal quantiles in the order of the members", "statement": "getInvCdf is the quantile of the normal law with the ensemble mean and the standard deviation exp(a + b * spread), getCdf its distribution function, and the two are inverse to each other. The calibrator replaces every ensemble by the quantiles of the levels (e + 1/2) / E in the order of the raw members, from the mean and the standard deviation of the values in the neighbourhood, without changing the mean; ensembles with a missing member are left as they are.", "quantifier": "for all ensembles, grid sizes, times, parameters and neighbourhoods and all symmetric families of distributions", "why_tests_cant": "That the mean is kept for every ensemble size and every parameter is a statement about infinitely many inputs; the tests have no missing members and no mean below 0.", "anchors": ["src/client/Calibrator/Gaussian.cpp:24-190"]}
{"id": "C125", "title": "The bct calibrator of the client turns members into quantiles of the Box-Cox t distribution", "statement": "With parameters a..g, ensemble mean m (at most 100) and standard deviation s (both not negative), CalibratorBct::getInvCdf returns for a level q in (0,1) the number (a + b m) y, where y > 0 is the one number whose level is q in the Box-Cox t distribution with scale exp(c + d s^(1/3)), exponent e + f m and exp(min(g,10)) degrees of freedom, truncated to the possible values; greater levels give greater y. Level 0 gives 0; missing or negative predictors, missing parameters and levels outside of [0,1) give a missing value; fewer than seven parameters end the program. calibrateCore keeps a grid point with a missing member or a negative mean, and otherwise gives the member with k members below it the value of level (k + 1/2)/E. (The values should never be negative; they are if a + b m is.)", "quantifier": "for all grids, ensembles, times, parameters, levels and all families of t distributions", "why_tests_cant": "The exponent is real valued with three branches (negative, zero, positive), and the claim is about the distribution function of every value.", "anchors": ["src/client/Calibrator/Bct.cpp:15-198"]}
{"id": "C126", "title": "A text file of parameters is read as the table that it is", "statement": "The constructor of ParameterFileText reads the lines up to the last line break or the first line with more than 9999 characters and skips those that begin with '#'. The first other line has the names of the columns, every other one has numbers. If lat, lon and elev are all there or none, all lines have the same number of parameters, and there is a column for the time or the place if there is more than one line, then the file holds the parameters of the lines for their times and places, the last line for a time and place counting, and getTimes has the times of the lines in increasing order. Everything else should be refused: empty lines and white space at the end of a line, some but not all columns for a place, different numbers of parameters, no line with numbers. (Not refused are lines shorter than the header, numbers without white space between them, times that are no whole numbers, unknown elevations and files that cannot be opened; a negative time makes an index out of range.)", "quantifier": "for all texts, numbers of lines and columns, orders of columns and ways of writing numbers", "why_tests_cant": "The tests read a few files; the claim is about every text, with any white space, comments, order of columns and number format.", "anchors": ["src/client/ParameterFile/Text.cpp:10-149"]}
{"id": "C127", "title": "A text file of parameters that has been written can be read again", "statement": "After write(), reading the file gives the same parameters for every time and place, if the numbers are written exactly and the lines are short enough. (False whenever all times and places have parameters: the names of the parameters are written after the line break of the header and without a line break of their own, so that the first line of values cannot be read. Without parameters the end of the map is dereferenced.)", "quantifier": "for all parameters, places, times, numbers of parameters and ways of writing numbers", "why_tests_cant": "The failure depends on whether there is a gap in the parameters, which a test of one file does not show; the positive part is about every file.", "anchors": ["src/client/ParameterFile/Text.cpp:174-220"]}
{"id": "C128", "title": "A well-formed command line of the client means what it says", "statement": "A command line of the form [-va alias options] ([-vi input options] -v name options [-d downscaler options] (-c calibrator options [-p file options])*)+ gives, for each new output name, one configuration with that name, that input variable (or the variable of the same name), those options, that downscaler (or nearestNeighbour) and those calibrators in order with their parameter files; it is refused exactly when a parameter file has no known type or cannot be read, an input variable is missing and the downscaler is not bypass, a scheme is not accepted, or an alias has no name. Proved when the -vi of a variable cannot be taken for one of the variable before it and -p only follows calibrators; false otherwise (a -vi after options replaces the input of the previous variable; a variable is lost; a parameter file of a downscaler is ignored and poisons the next calibrator; options of one parameter file leak into the next; a second alias or downscaler becomes an option).", "quantifier": "all well-formed command lines of any length, all environments (which variables, files and schemes exist)", "why_tests_cant": "Command lines are unbounded sequences; the state machine has 19 states and its errors need particular orders of flags.", "anchors": ["src/client/Setup.cpp:89-752", "src/client/Setup.h:14-27", "src/client/ParameterFile/ParameterFile.cpp:37-49"]}
{"id": "C129", "title": "Every command line of the client ends, and nothing in a configuration comes from nowhere", "statement": "For every list of arguments the state machine ends, in an error message or in configurations. The configurations have different output names, in the order of the arguments, each standing after a -v and not empty nor starting with -; the input name is the output name or stands after -vi; the downscaler is the default or stands after -d and never has a parameter file; each calibrator stands after -c and its parameter file, if any, has a known type and was readable; the input variable exists or the downscaler is bypass. A line that does not start with -v, -vi or -va followed by a name is refused.", "quantifier": "all lists of arguments, all environments", "why_tests_cant": "An endless loop or a made-up configuration could need an arbitrary ill-formed sequence of words.", "anchors": ["src/client/Setup.cpp:89-752"]}
{"id": "C130", "title": "The files of a command line are opened once, with their own options and direction", "statement": "The words before the variables are taken apart into the input names and options, the output names and options (those of the input if there is no output) and the rest. If all files are different every output is opened for writing with the output options and every input for reading with the input options; if outputs and inputs are the same files each is opened once for writing, and different options are refused; a different number of files, or none, is refused; files with the same name are the same file. False: a file that is read first and written later stays read-only with the options of the input; an output name with = in it is taken for an option, and the input file is then written to.", "quantifier": "all lists of file names and options, all file systems", "why_tests_cant": "The faults depend on which names coincide and in which order.", "anchors": ["src/client/Setup.cpp:6-87", "src/client/Util.cpp:146-159", "src/client/Options.cpp:93-118"]}
{"id": "C131", "title": "The correlations of the calibrator oi are a decreasing function of the distances, and symmetric", "statement": "The correlation is between 0 and 1, 1 at the same place, does not depend on the sign of the differences, and falls with horizontal distance, difference in elevation and in land fraction; an unknown difference in elevation gives 0 if there is a vertical scale. The same function is used between grid points and stations and between two stations. False: with missing elevations the difference 0 is used, as the test isValid(a && isValid(b)) is always true; the distance -999 of a place without coordinates is used as a number; between two stations of which one has no land fraction the value depends on the order.", "quantifier": "all scales, distances, elevations and land fractions", "why_tests_cant": "A test checks a few distances; the faults need missing metadata.", "anchors": ["src/client/Calibrator/Oi.cpp:456-470", "src/client/Calibrator/Oi.cpp:572-597", "src/client/Calibrator/Oi.cpp:1123-1148"]}
{"id": "C132", "title": "The Box-Cox transform of the calibrator oi and its inverse undo each other", "statement": "For a positive exponent the transform is increasing on amounts, everything below 0 is treated as 0, the inverse gives back every amount of at least 0 and every transformed value of at least that of 0. With the exponent 0 it is the logarithm and its inverse. Without transform nothing changes. False: with the exponent 0 a member with an amount of 0 is dropped everywhere; a missing observation becomes an observation of 0; the correction with the variance is not the expected value, as a factor is inside the power, and with the exponent 1 it is infinite.", "quantifier": "all values, exponents and variances", "why_tests_cant": "Tests compare a few values with one exponent; the inverse law and its edge cases are over a continuum.", "anchors": ["src/client/Calibrator/Oi.cpp:1032-1047", "src/client/Calibrator/Oi.cpp:1150-1178", "src/client/Calibrator/Oi.cpp:247"]}
{"id": "C133", "title": "A grid point uses exactly the best correlated acceptable stations near it", "statement": "The stations used are those with an observation, an elevation close enough to that of the nearest grid point, not at sea if only land is wanted, not next to the edge of a regular grid, near the grid point, and with a correlation above the limit; at most maxLocations of them, the best ones, each once. In a cross-validation the best one is left out first. False: on a regular grid the square around a station has a row and a column less on one side; with the function soar, stations with a correlation above the limit are not found as the radius is that of the function gauss.", "quantifier": "all grids, lists of stations and options", "why_tests_cant": "Ties, caps and edges over arbitrary lists of stations.", "anchors": ["src/client/Calibrator/Oi.cpp:205-316", "src/client/Calibrator/Oi.cpp:450-525"]}
{"id": "C134", "title": "In single-member mode the calibrator oi computes the optimal interpolation of each member", "statement": "The forecast of a member at a station is its value at the nearest grid point with a correction for elevation, minus the bias. Each valid member gets its background plus the weights times observation minus forecast; the weights solve (P + R) w = G with the correlations P, G and R = epsilon^2 ci (divided by 1 + gamma with a bias); with the transform the result is not below the transform of 0, and the variance is estimated from the differences before and after. Other members are missing, the bias stays. If the equations are singular, an exception is thrown. Without stations the point keeps its values. False: with the transform the final field is smoothed everywhere, also without any station; the options saveDiff and extrapolate do nothing in this mode; with three parameters the error variance of the second one is not used.", "quantifier": "all numbers of stations and members, all values", "why_tests_cant": "A test solves one or two stations; the identity holds for systems of any size.", "anchors": ["src/client/Calibrator/Oi.cpp:379-436", "src/client/Calibrator/Oi.cpp:527-675", "src/client/Calibrator/Oi.cpp:1009-1053"]}
{"id": "C135", "title": "In ensemble mode the calibrator oi computes the Kalman update of the ensemble", "statement": "With two parameters, each grid point with stations in reach gets an ensemble that is the Kalman update of the valid members: the covariances of the background are those of the members times delta (and times 1 + gamma with a bias), the errors of the observations are independent with the variance sigma^2 ci divided by the correlation with the grid point; the mean moves by the gain times observation minus forecast (or 1 in a diagnosis), and the variance is what remains. Other members are missing. With one parameter the program ends. False: with saveDiff the difference from the ensemble mean is saved, not the difference from the background.", "quantifier": "all numbers of stations and members, all values, all libraries that compute inverses and eigenvectors", "why_tests_cant": "The symmetric root of the transform matrix and the gain identity hold for systems of any size; a test checks one.", "anchors": ["src/client/Calibrator/Oi.cpp:680-691", "src/client/Calibrator/Oi.cpp:770-938"]}
{"id": "C136", "title": "Without extrapolation the change of a member stays between its differences from the observations", "statement": "In ensemble mode without the option extrapolate, the change of a member is the change of the Kalman update, limited to the range of its differences from the observations used, and 0. True if one station is used. False with more stations: one element of the matrix of deviations, of another station and another member, is used for all stations, so a member can be moved away from all observations.", "quantifier": "all numbers of stations and members, all values", "why_tests_cant": "A test with one station sees a correct filter; the wrong index shows for more stations only.", "anchors": ["src/client/Calibrator/Oi.cpp:939-971"]}
{"id": "C137", "title": "The bias moves by the given part of the change of the ensemble mean", "statement": "In ensemble mode with a bias, the new bias at a grid point with stations is the old one minus gamma / (1 + gamma) times the change of the ensemble mean made by the Kalman update. False elsewhere: at points without stations in reach the bias becomes 0, although nothing was learnt.", "quantifier": "all numbers of stations and members, all values", "why_tests_cant": "That the sum of the members with the weights equals the change of the mean rests on the weights adding to zero, for all ensembles.", "anchors": ["src/client/Calibrator/Oi.cpp:527-536", "src/client/Calibrator/Oi.cpp:979-988"]}
{"id": "C138", "title": "With radar observations the Kalman update uses errors correlated between radar stations", "statement": "With three parameters and radar stations among those used, the analysis is the Kalman update with errors of the observations that are correlated between radar stations, by the function soar with the scale hLengthC and the standard deviation sigmaC, and independent otherwise. If the library finds the correlations singular, the background is kept. False without radar stations in reach if the library gives 0 for the condition of the empty matrix: the other stations are then not used.", "quantifier": "all numbers of stations and members, any mixture of radar and other stations with positive definite correlations", "why_tests_cant": "The block structure of the inverse holds for any subset of stations.", "anchors": ["src/client/Calibrator/Oi.cpp:692-768"]}
{"id": "C139", "title": "The new inflation factor is a weighted mean of the old one and the ratio of variances", "statement": "With at least one station and two valid members, the new inflation factor is the mean of the old one (weight newDeltaVar) and of (sigma / epsilon)^2 divided by the mean variance of the members at the stations (weight c - 1), and lies between the two. False: a member that is missing at a station counts as 0 minus the mean there; with one member the factor is NaN; without stations the program reads outside the array.", "quantifier": "all numbers of stations and members, all values", "why_tests_cant": "Averages over arbitrary numbers of stations; the missing-member error needs a missing value at a station.", "anchors": ["src/client/Calibrator/Oi.cpp:379-417", "src/client/Calibrator/Oi.cpp:1073-1121"]}
{"id": "C140", "title": "One time step of the oi calibrator in the client (ensemble mode)", "statement": "In ensemble mode, CalibratorOi turns the field of one time into the back-transformed Kalman update of the transformed members at every grid point with stations, where the forecasts at the stations come from the nearest grid points, corrected for elevation and for the bias of the last time multiplied by mu, and the inflation factor is that of the last time (1 if missing). Grid points without stations keep their values. Members with missing values stay missing and do not influence the others. The new inflation factor is made from the old one and the forecasts at all stations.", "quantifier": "all grid sizes, members, stations, values, bias and inflation fields, selections of stations", "why_tests_cant": "The wiring between the parts of a 1000-line function only shows where grid point, station and member differ in every index at once; a test checks a few fields.", "anchors": ["src/client/Calibrator/Oi.cpp:319-365", "src/client/Calibrator/Oi.cpp:379-436", "src/client/Calibrator/Oi.cpp:1005-1085"]}
{"id": "C141", "title": "Reading forecasts for places from a text file", "statement": "A file whose lines hold a time, latitude, longitude, elevation and the values of the members is read into one field per time: the times are the distinct times in increasing order, the places the distinct ones in order of latitude, longitude and elevation, with longitudes brought into (-180, 180], and the value for a time, place and member is that of the last line for this time and place, missing if there is none. Lines with different numbers of members, coordinates out of range or white space at the end end the program. False: a file without lines, and a longitude of zero, have undefined behaviour; malformed lines are read as other forecasts; the last line is left out without a line break; a place given with longitudes that differ by 360 is two grid points.", "quantifier": "all files, numbers of lines, places, times and members", "why_tests_cant": "The places form a tree-ordered set built from an arbitrary number of lines in any order; tests read one small file.", "anchors": ["src/client/File/Text.cpp:9-129"]}
{"id": "C142", "title": "Writing forecasts to a text file", "statement": "What FileText and FilePoint write can be read again: one line per time of the first variable, with the time truncated to a whole number and the values of the members as the stream shows them. False for FileText: the line has no coordinates, so read again the first three members are the place and the others the members; only the values of the first grid point are written, and only the first variable.", "quantifier": "all numbers of times and members, all values, any way of showing numbers by numerals of bounded length", "why_tests_cant": "Roundtrip over arbitrary fields and any rounding; a test with one place and one value does not see the missing columns.", "anchors": ["src/client/File/Text.cpp:131-150", "src/client/File/Point.cpp:134-153"]}
{"id": "C143", "title": "Reading forecasts for one place from a text file", "statement": "A point file gives, for the times 0, 1, ..., T - 1 of the option time, the values of the last line for this time, and missing values if there is none. What is written for these times is read again. A place that is not given, a latitude out of range, no lines without the option ens, and a line for the time with another number of members end the program. False: without the option time a variable without a value is used, although the file has lines; times that are not below T (such as UNIX times, which the help text asks for) are never read; a line of white space is undefined behaviour and a line with a word is one for time zero without members; the number of members is that of the last line; a longitude of zero is undefined behaviour.", "quantifier": "all files, numbers of lines, times and members, all options", "why_tests_cant": "Any order and number of lines; the loss of UNIX times is silent, all values are missing.", "anchors": ["src/client/File/Point.cpp:8-90", "src/client/File/Point.cpp:95-132"]}
{"id": "C144", "title": "The message with the lowest pressure of each station", "statement": "FileNorcomQnh writes a header with day, hour and minute of the current time, of the first and of the last time, then for every station in order its name, filled up to the width of the longest, and the lowest of its values from the first to the last time, leaving out missing ones, in whole hPa, rounded down, with four digits. A station without values ends the program. The file is made only if all options are given and of the same size, latitudes are in range and the first time is not after the last. False: a first or last time that is not a time of the file, and a longitude of zero, are undefined behaviour; zeros are put before the sign of a negative value.", "quantifier": "all numbers of stations and times, all names, all times from 1970 to 9999, pressures up to 10000 hPa", "why_tests_cant": "The minimum with missing values at any positions, and any mixture of name lengths; tests write one message.", "anchors": ["src/client/File/NorcomQnh.cpp:9-75", "src/client/File/NorcomQnh.cpp:85-148"]}
{"id": "C145", "title": "The program: arguments, order of the work, and what is written", "statement": "The first of --version and --help counts wherever it is, fewer than two arguments give the usage, and each --debug is taken out with the word after it, the last of which is the level. For every pair of files the output gets times, members and reference time of the input; each variable, in order, is made, downscaled and passed through its calibrators in order; then the variables whose option write is not a number zero are written, with all arguments as message, and both files are cleared. If no file occurs twice, what is made of a pair depends on its two files only, no other file changes, and the program ends well if and only if each pair can be processed. An input of several outputs is the same for each of them, and an output that is input of a later pair is used as written. False: an unknown debug level is accepted and shows everything, and with write=true or write=yes the variable is not written.", "quantifier": "all argument lists, all numbers of files, variables and calibrators, all behaviours of files, downscalers and calibrators", "why_tests_cant": "The order and independence for any number of files and for arbitrary schemes; the driver has no unit test.", "anchors": ["src/client/Driver/Gridpp.cpp:62-206", "src/client/Options.h:49-61"]}
{"id": "C146", "title": "Indices and grids in NetCDF parameter files", "statement": "getIndex numbers the elements of an array of any number of dimensions, the last index changing fastest; for indices in range the number is within the array and getIndices is its inverse in both directions. getGridValues gives for row i and column j the value at these indices of the dimensions of latitude and longitude, for a variable with one or both of the two, in either order, and others of size 1. Without such dimensions the program stops. False: a further dimension of size 2 or more makes the values be written beyond the end of an array.", "quantifier": "all numbers and sizes of dimensions, all indices, all orders of dimensions, all values", "why_tests_cant": "Any number and order of dimensions; an overflow of the heap need not show.", "anchors": ["src/client/ParameterFile/Netcdf.cpp:422-450", "src/client/ParameterFile/Netcdf.cpp:470-496", "src/client/ParameterFile/Netcdf.cpp:520-605"]}
{"id": "C147", "title": "Reading parameters from a NetCDF file", "statement": "After reading, the parameters got for the place of a cell and a time are the values of the file at the indices of the cell, of the time and of the parameters, whatever the order of the dimensions and with or without times, fill values being missing values; elsewhere there are none, and later times are refused. The nearest cell is used for other places. False: the values of the times are not used, only their numbers; a variable with five dimensions is read with an index out of range; a missing latitude or longitude is not recognised and becomes a place.", "quantifier": "all files with a grid, all sizes and orders of dimensions, all places and times", "why_tests_cant": "Any order of four dimensions and any sizes; tests read a few files.", "anchors": ["src/client/ParameterFile/Netcdf.cpp:11-198", "src/client/ParameterFile/Netcdf.cpp:498-518"]}
{"id": "C148", "title": "Writing parameters to a NetCDF file and reading them again", "statement": "write makes a file with a row for every place, in order, and succeeds exactly if the first place has parameters for some time and every place has for every time as many as the first has at most, or none. What is written is read again: the same times, and for every place and time the same parameters. False: a parameter that is the fill value, and no parameters for a time, come back as missing values; if the first place has none, nothing is written although others have some; the name of the dimension that is given for reading is not used for writing.", "quantifier": "all settings of parameters, in any order, all numbers of places, times and parameters", "why_tests_cant": "Round trips for all collections of parameters; the failure depends on which place is first in the map.", "anchors": ["src/client/ParameterFile/Netcdf.cpp:292-406", "src/client/ParameterFile/ParameterFile.cpp:21-35"]}
{"id": "C149", "title": "Reading one time of a variable from a NetCDF file with forecasts", "statement": "The field for a time has at row, column and member the value of the variable at these indices and at the index of the time, whatever the order of the dimensions and whichever are absent; in a dimension without a meaning the index is the level that is asked for, or the first one; the value is scaled and moved as the attributes say, and a fill value is a missing value. A level that is too large is refused. False: with a fill value of -999 given in the file, a missing value is scaled like a number; a variable without the member dimension fills only the first member, the others being missing; a time that the file does not have is not noticed and memory that was never written is used.", "quantifier": "all files, all sizes, numbers and orders of dimensions, all times and levels", "why_tests_cant": "Every order and number of dimensions with every size; the tests read a few files with fixed layouts.", "anchors": ["src/client/File/Netcdf.cpp:230-364", "src/client/File/Netcdf.cpp:956-965"]}
{"id": "C150", "title": "Writing a variable to a NetCDF file with forecasts", "statement": "After writing all times the variable has at row, column, member and time the value of the field, moved and scaled back, missing values being written as the fill value, and its other values are as before; read again, a field is what was written. A variable without a time keeps the last field. False: of a variable with another dimension, only the values at the first index are replaced, also when another level had been read; with a fill value of -999 missing values are scaled like numbers; a number that is the fill value comes back as missing.", "quantifier": "all files, all sizes and orders of dimensions, all fields and times", "why_tests_cant": "Round trips for all fields and layouts, and the claim that nothing else changes.", "anchors": ["src/client/File/Netcdf.cpp:436-522"]}
{"id": "C151", "title": "Grids of a NetCDF file with forecasts", "statement": "A variable with both dimensions of the grid, in either order and among any others, gives for every cell the value at the indices of the cell and at the first index of the other dimensions, fill values being missing values; a variable with one of them has its values repeated along the other one. A variable with one other dimension, or with none or several that do not include both, ends the program. False: in a variable with one dimension fill values are not recognised.", "quantifier": "all files, all sizes and orders of dimensions, all cells", "why_tests_cant": "Any number and order of dimensions; the tests have one layout.", "anchors": ["src/client/File/Netcdf.cpp:1201-1296"]}
{"id": "C152", "title": "Opening a NetCDF file with forecasts", "statement": "The dimensions and variables are those whose names are given, or the first of the usual names that are there. After opening, the number of members is the size of the dimension for them, or 1; the latitudes are those of the file; the longitudes are between -180 and 180 and equal those of the file up to full circles; the elevations are the altitudes of the file, or the geopotential divided by 9.81, or none; the times are those of the file and the reference time is that of the file, or the first time; without times the reference time is the only time, and without both the program ends. False: with a time that has no dimension and no reference time, the reference time stays missing; a variable of times with more values than the dimension of the times overruns an array; a longitude of zero is divided by itself and converted to an integer.", "quantifier": "all files with fine names and variables, all options, all sizes and orders of dimensions", "why_tests_cant": "The claim is about every file and every combination of names; the tests open a few files.", "anchors": ["src/client/File/Netcdf.cpp:8-206", "src/client/File/Netcdf.cpp:645-702", "src/client/File/File.cpp:222-288"]}
{"id": "C153", "title": "Writing the altitudes of a NetCDF file with forecasts", "statement": "A variable for the altitudes that is not there is defined with the two dimensions of the grid, in their order in the latitudes if these have both, otherwise rows first; writing then puts for every cell the elevation at the indices of the cell, missing ones as the fill value, whatever the order of the dimensions; read again the elevations are the same, unless one is the fill value. An altitude with another number of dimensions than the grid ends the program. False: a file with one dimension for its points cannot get an altitude, the program ends; an altitude with another dimension in place of one of the grid is written beyond the end of an array.", "quantifier": "all files, all sizes and both orders of the dimensions, all elevations", "why_tests_cant": "Round trips over all grids; the failures need unusual files.", "anchors": ["src/client/File/Netcdf.cpp:704-814"]}
{"id": "C154", "title": "Writing a file adds a line to its history and sets the conventions", "statement": "When forecasts are written to a NetCDF file, the global attribute history becomes the line of this run (stamp, program and message), then a line break, then the history it had; after any number of runs it has one line per run, newest first, and the old history last. Appending puts the new text last in the same way. No other global attribute changes, except Conventions, which is CF-1.0 afterwards.", "quantifier": "all sets of global attributes, all finite sequences of runs with any stamps and messages", "why_tests_cant": "The claim is about sequences of runs of any length and about all other attributes; tests write once and do not read the history back. The test for an attribute that is missing is inverted in the code, so files without Conventions never get any, and a character with number 0 or a text that is too long loses the old history.", "anchors": ["src/client/File/Netcdf.cpp:978-1109", "src/client/File/Netcdf.cpp:1180-1186"]}
{"id": "C155", "title": "Writing a NetCDF file with forecasts changes only what it should, and the forecasts come back", "statement": "When forecasts are written to a NetCDF file, missing dimensions for the times and the members are added after the existing ones, missing variables are defined with the dimensions of the file, and then the times, the reference time, the elevations (if any is known) and all fields are written where the dimensions of their variables say. All other variables and all existing dimensions stay as they are. Every field, for all times, points and members, is the same when it is read again with the new layout, and so are the times and the reference time.", "quantifier": "all files with any dimensions and variables, all lists of variables with different names, existing or new, all fields, times, elevations, scales and offsets that fit", "why_tests_cant": "The claim covers every combination of dimensions and variables that may be missing, every order of dimensions, and all other variables of the file; tests write one or two fixed files. Missing times come back as a number, the times are written to the variable time even if the file uses another one, and a reference time with several values makes the program read memory that is not there.", "anchors": ["src/client/File/Netcdf.cpp:366-522", "src/client/File/Netcdf.cpp:1111-1179", "src/client/File/Netcdf.cpp:815-824"]}
{"id": "C156", "title": "A NetCDF file to which forecasts have been written can be opened again", "statement": "When forecasts have been written to a NetCDF file and the file is opened again with the same options, opening succeeds. The file has the same latitudes, the same longitudes and the same land fractions as before, the elevations that were written, the times and the reference time that were written and the number of members that was written. Every field that was written is then read with the same values as before.", "quantifier": "all files with a grid of any kind, all options, all lists of variables with different names that do not describe the grid, all fields, times and elevations that fit", "why_tests_cant": "The claim is about the composition of writing and opening for every combination of dimensions that are added and variables that are there; tests open a file or write a file, but do not compare the two for any layout. If the options name another variable for the elevations, if an elevation is the value for missing of the variable, or if no elevation is known, the elevations that were written do not come back.", "anchors": ["src/client/File/Netcdf.cpp:8-224", "src/client/File/Netcdf.cpp:366-522", "src/client/File/Netcdf.cpp:1111-1179"]}
{"id": "C157", "title": "A description is set in two columns with all its words", "statement": "When a title and a message are formatted as a description, the title is in the first column, after its indentation, and every word of the message appears exactly once and in order in the second column. A new line is begun only if the next word would make the line too long, and every later line begins with as many spaces as the first column is wide. If the title and all words are short enough, no line is longer than the limit. If there is no room for a second column, the title and the message follow each other on one line.", "quantifier": "all titles, messages, widths, limits and indentations", "why_tests_cant": "The tests format one message with four widths and do not compare two of the results. The space before a word is not counted, so that a line can be one character too long, and a title that fills the first column runs into the first word of the message, as it does in the help of the program for directionVariable=required; neither shows with the messages of the tests.", "anchors": ["src/client/Util.cpp:294-337", "src/client/Util.h:133"]}
{"id": "C158", "title": "The inverse of a matrix is its inverse, or all of it is missing", "statement": "For a square matrix without missing values, Util::inverse gives a matrix whose product with the given one is the unit matrix, from the left and from the right, if the determinant is not 0. If the determinant is 0, or a value of the matrix is missing or not a number, all values of the result are missing.", "quantifier": "all square matrices of any size over any ordered field, including those in which rows must be exchanged", "why_tests_cant": "The tests invert a few small matrices. That the elimination finds a pivot whenever the matrix has an inverse, and that the result is then the inverse for every size, is a statement about all matrices.", "anchors": ["src/client/Util.cpp:457-521"]}
{"id": "C159", "title": "Regression gives the coefficients with the least squared error", "statement": "For predictors of which none is a combination of the others, with or without a constant term, and any observations, Util::regression gives the coefficients with the least sum of squared errors, and no other coefficients have the same sum. If a predictor is a combination of the others, if there are fewer than two observations, or if a predictor has another length, the program ends.", "quantifier": "all numbers of predictors and observations, all values, all other coefficients", "why_tests_cant": "A test can compare the result with known coefficients, but not with all other coefficients; it cannot show that the solution exists exactly for independent predictors.", "anchors": ["src/client/Util.cpp:553-639"]}
{"id": "C160", "title": "Training of the coastal correction", "statement": "CalibratorCoastal::train uses the cases in which the observation and the forecasts it needs are present. If the land fraction in the search radius varies by more than minLafDiff, the offset and the factor of the gradient returned are the only ones with the least sum of squared errors of observation minus (forecast + offset + factor*gradient), and the program stops if they are not determined; otherwise the factor is 0 and the offset is the one with the least sum of squared errors. Without usable cases or without land fractions the program stops.", "quantifier": "for all grid sizes, land fractions in [0,1], search radii, thresholds, observations and ensembles with any missing values", "why_tests_cant": "Least squares over all coefficients and all data sets cannot be sampled; the wrong use of a missing forecast at the sea point needs a particular combination of missing values.", "anchors": ["src/client/Calibrator/Coastal.cpp:96-202", "src/client/Util.cpp:553-639"]}
{"id": "C161", "title": "Schemes of the client are made as their help text says", "statement": "For every calibrator and downscaler: giving an option with the default of the help text makes the same scheme as not giving it; an option that must be given ends the program if it is not given; there is a warning if and only if an option is given that is not in the help text or does not apply; a name that is not in the help text ends the program.", "quantifier": "all schemes, all option lists", "why_tests_cant": "There are infinitely many combinations of options for each of the 31 schemes; tests construct a few schemes with a few options and never compare with the help text.", "anchors": ["src/client/Calibrator/Calibrator.cpp:10-103", "src/client/Downscaler/Downscaler.cpp:10-51", "src/client/Scheme.cpp:4-6", "src/client/Options.cpp:67-91", "constructors and description() in src/client/Calibrator/*.cpp and src/client/Downscaler/*.cpp", "src/client/Util.cpp:429-455"]}
{"id": "C162", "title": "Training of the calibrators gaussian and zaga is maximum likelihood", "statement": "The function that is made small in the training of the calibrators gaussian and zaga is minus the logarithm of the likelihood of the observations, with the mean and the standard deviation of the members present (gaussian) or their mean and the fraction of them up to the threshold (zaga) as predictors. So if the search finds the smallest value, no parameters have a greater likelihood than the result. Missing observations do not matter. logLikelihood is the logarithm of the density.", "quantifier": "all data sets, all densities, all searches", "why_tests_cant": "No test trains these calibrators, and a test could only compare the result for a few data sets with numbers from the same code; that the function has the order of the likelihood is a statement about all pairs of parameters.", "anchors": ["src/client/Calibrator/Gaussian.cpp:192-325", "src/client/Calibrator/Zaga.cpp:355-383", "src/client/Calibrator/Zaga.cpp:401-586", "src/client/Calibrator/Zaga.cpp:653-657"]}
{"id": "C163", "title": "The kind of an input file is found", "statement": "A type given in the options gives the kind of file the help text says, and any other word ends the program. Without a type the kind is found from what is on disk: every file that can be opened is found to be of its kind, and every file that is found can be opened. The help text says that types are autodetected.", "quantifier": "all options, all contents on disk", "why_tests_cant": "Tests open a few files of the repository; that every NetCDF file that can be opened is found, and that none that is found fails for lack of coordinates, is about all files and all options.", "anchors": ["src/client/File/File.cpp:19-57", "src/client/File/Netcdf.cpp:526-547", "src/client/File/Netcdf.cpp:25-97"]}
{"id": "C164", "title": "The grids of a file have the size of the file", "statement": "After any sequence of setElevs and setLandFractions, getElevs and getLandFractions give a grid of the size of the file: the last grid of this size that was given, or missing values everywhere. hasSameDimensions holds exactly if the four sizes are equal. The file Fake can be made for all positive sizes, has fractions of land between 0 and 1, and the sum of row, column and member as values; other sizes end the program.", "quantifier": "all sizes, all sequences of settings", "why_tests_cant": "Tests set one grid of the right size and one of a wrong size; sequences of settings, ragged grids and files without coordinates are not tried, and undefined behaviour in the constructor need not show in a run.", "anchors": ["src/client/File/File.cpp:167-174", "src/client/File/File.cpp:282-334", "src/client/File/Fake.cpp:2-87"]}
{"id": "C165", "title": "A simple parameter file gives its set everywhere", "statement": "A parameter file made from one set (ParameterFileSimple) gives this set for every time from 0 on and every place, and without a place; times before 0 are refused; it reports one time, no dependence on place or time, and the size of the set as number of parameters, also after more sets have been added. An element of a set is read or replaced exactly if its number is in the set, any other number is refused; a set is valid exactly if none of its values is missing.", "quantifier": "all sets, times, places, element numbers", "why_tests_cant": "Tests try few times and places and one set; they never list the times after adding a set for another time, nor look up a place after adding one without rebuilding the tree.", "anchors": ["src/client/ParameterFile/Simple.cpp:9-19", "src/client/Parameters.cpp:20-48", "src/client/ParameterFile/ParameterFile.cpp:271-280"]}
{"id": "C166", "title": "A downscaler leaves the downscaled fields in the output file", "statement": "After Downscaler::downscale the output variable of the output file has at every time the field that the downscaler makes from the input field of this time; no other variable of the output and nothing of the input changes; with different numbers of times nothing is done and the result is false. The downscaler bypass changes no field and makes sure that the output has the variable.", "quantifier": "all files, all states of the fields in memory, all downscalers with the common loop, all numbers of times", "why_tests_cant": "Tests downscale into files that have just been opened. The fields in memory are a state: if only the first time of the output variable has been read before, asking for the second time without reading resets all times, and the field of the first time is lost.", "anchors": ["src/client/Downscaler/Downscaler.cpp:15-21", "src/client/Downscaler/NearestNeighbour.cpp:24-41", "src/client/Downscaler/Bypass.cpp:11-18", "src/client/File/File.cpp:79-137"]}
{"id": "C167", "title": "Training from fields uses the values at the two points only", "statement": "Calibrator::train from fields trains the method with one pair for each case, in order: the first member of the observations at the point of the observations and all members of the ensemble at the point of the ensemble. Values elsewhere have no influence; a point outside the fields ends the program; a method that cannot be trained ends the program.", "quantifier": "all methods, numbers of cases, fields and points", "why_tests_cant": "Independence of all other values is a statement on pairs of inputs; tests compare few fields.", "anchors": ["src/client/Calibrator/Calibrator.cpp:132-150"]}
{"id": "C168", "title": "Statistics are chosen by their names", "statement": "For every statistic of the enumeration get_statistic gives that statistic exactly for its identifier in lower case, and Unknown for every other text.", "quantifier": "All texts and all statistics.", "why_tests_cant": "The set of texts is infinite, and the tests check only the names that the author thought of: the name of the variance is missing in the code and in the tests.", "anchors": ["src/api/gridpp.cpp:11-43", "include/gridpp.h:88-100"]}
{"id": "C169", "title": "Optimal interpolation does not depend on the order of the observations, nor on missing ones", "statement": "optimal_interpolation and optimal_interpolation_full, for points and for grids, give the same analysis and the same analysis variance, and end in the same way, when the observations (with their places, variances, background values) are given in another order, or when observations that are missing, or whose background is missing, are added or left out.", "quantifier": "All numbers of observations and output points, all orders, all places, values, variances, structure functions whose correlations are numbers, all lawful spatial indexes and libraries; max_points 0 or no two usable observations equally correlated with the same output point", "why_tests_cant": "The tests use a handful of observations in one order; there are n! orders of n observations, and the selection sorts by correlation and inverts a matrix whose rows are permuted.", "anchors": ["src/api/oi.cpp:89-136", "src/api/oi.cpp:138-340", "src/api/oi.cpp:26-87", "src/api/oi.cpp:342-412"]}
{"id": "C170", "title": "Neighbourhood extremes compose", "statement": "The neighbourhood maximum with half width h1 of the neighbourhood maximum with half width h2 is the neighbourhood maximum with half width h1 + h2, also at the borders, for one row or column and with missing values, and the same holds for the minimum; with a larger half width the maximum never falls and the minimum never rises, and no value becomes missing.", "quantifier": "All rectangular non-empty fields with any mixture of numbers, missing values and infinities, all half widths.", "why_tests_cant": "The law relates three runs with different half widths for every size of field; the implementation uses a sliding method in two passes whose border handling differs with the relation of half width and size.", "anchors": ["src/api/neighbourhood.cpp:90-242", "src/api/neighbourhood.cpp:28-89"]}
{"id": "C171", "title": "Neighbourhood statistics in other units", "statement": "If every value v of a field is replaced by c v + d (other units), the neighbourhood mean is in the other units, the count is unchanged, the sum is c times the sum plus d times the count, the variance is multiplied by c squared and the standard deviation by |c|; for c not negative the minimum, median, maximum and every quantile are in the other units, and for c not positive minimum and maximum change places and level q becomes 1 - q.", "quantifier": "All rectangular non-empty fields, half widths, factors and offsets, quantile levels in [0, 1].", "why_tests_cant": "It relates two runs for infinitely many unit changes; the tests compare with numbers in one unit only.", "anchors": ["src/api/neighbourhood.cpp:28-242", "src/api/neighbourhood.cpp:534-603", "src/api/util.cpp:35-160"]}
{"id": "C172", "title": "Neighbourhood statistics do not prefer a direction", "statement": "The neighbourhood statistics and quantiles of the field upside down, with left and right exchanged, or with rows and columns exchanged, are the statistics of the field upside down, with left and right exchanged, or with rows and columns exchanged.", "quantifier": "All rectangular non-empty fields, half widths, statistics other than the random choice, quantile levels in [0, 1].", "why_tests_cant": "The sliding and the summed-area method go through the field in one direction with special cases at the far borders; an error there shows only for particular sizes and half widths.", "anchors": ["src/api/neighbourhood.cpp:28-242", "src/api/neighbourhood.cpp:534-603"]}
{"id": "C173", "title": "Optimal interpolation depends on the observations through their departures from the background, in any unit", "statement": "If the background is given in other units (factor c, not 0, possibly negative, and any offset for each output point), the observations and the background at the observations in the same units (any offset for each observation, the same for both), and all error variances multiplied by k > 0, then optimal_interpolation and optimal_interpolation_full give the analysis in the other units (with the offsets of the output points) and the analysis variances multiplied by k, and end in the same way otherwise (exception, undefined behaviour).", "quantifier": "All inputs (also missing and infinite values, wrong sizes), factors, offsets, structure functions, limits on the number of observations, with and without extrapolation, for points and for grids; any matrix library, sorting and spatial index.", "why_tests_cant": "It relates two runs for infinitely many units; the tests use one unit, and an absolute threshold in a filter or a limit that is wrong for negative factors would not be seen.", "anchors": ["src/api/oi.cpp:138-341", "src/api/oi.cpp:89-136", "src/api/oi.cpp:26-87", "src/api/oi.cpp:342-412"]}
{"id": "C174", "title": "Ensemble-based optimal interpolation does not depend on the unit of the ensemble", "statement": "If the ensemble is given in other units (factor c, not 0, possibly negative, any offset for each output point), the observations and the ensemble at the observations in the same units (any offset for each observation) and the standard errors of the observations multiplied by |c|, then optimal_interpolation_ensi gives the analysed ensemble in the other units, and ends in the same way otherwise. The same holds for optimal_interpolation_ensi_multi_ebesc and optimal_interpolation_ensi_multi_ebe (whose error ratios have no unit). Also the second ensemble, from which correlations are taken, may be given in any unit without effect on the result.", "quantifier": "All ensembles (also missing and infinite values, wrong sizes), factors, offsets, structure functions, limits on the number of observations, with and without extrapolation, for points and for grids; any matrix library, sorting and spatial index.", "why_tests_cant": "It relates two runs for infinitely many units; the tests use one unit and values of order one, where the absolute threshold on the standard deviation does not show.", "anchors": ["src/api/oi_ensi.cpp:111-568", "src/api/oi_ensi.cpp:33-109", "src/api/oi_ensi_multi.cpp:329-627", "src/api/oi_ensi_multi.cpp:34-134", "src/api/oi_ensi_multi.cpp:630-859", "src/api/oi_ensi_multi.cpp:137-223", "src/api/oi_ensi_multi.cpp:361", "src/api/oi_ensi_multi.cpp:436"]}
{"id": "C175", "title": "Downscaling in other units", "statement": "nearest takes any change of the values that keeps missing values missing to its output: the output of the changed field is the changed output, for grids, points and several times (with a change of its own for each time). bilinear, simple_gradient, full_gradient and full_gradient_debug do so for every change of units v -> c v + d with c not 0, provided the gradients are multiplied by c; calls that report an argument or read out of range do so in both units. Bilinear interpolation does not do so for other changes of the values.", "quantifier": "for all trees, grids and points with arbitrary coordinates, elevations and land fractions (missing ones too), all sizes, all fields and stacks of fields with missing and infinite values, all gradients, all c not 0 and all d", "why_tests_cant": "A test compares a few fields in a few units; the claim ranges over all grids, all fields, all units and includes the calls that fail.", "anchors": ["src/api/nearest.cpp:7-229", "src/api/bilinear.cpp:27-135", "src/api/bilinear.cpp:270-403", "src/api/downscaling.cpp:7-61", "src/api/simple_gradient.cpp:5-93", "src/api/gradient.cpp:5-366"]}
{"id": "C176", "title": "Calibration curves in other units", "statement": "interpolate and apply_curve (value, list, field, one curve for each cell) give the same in all units: with the forecasts and the forecast side of the curve in units c v + d (c > 0) and the references in units c' v + d' (c' not 0), the result is the old result in the units of the references. This holds for the policies zero, mean slope and nearest slope, for one to one if c' = c, and for unchanged if the units are the same (and a curve with one point counts as one to one). quantile_mapping_curve and monotonize_curve return the curve in the other units.", "quantifier": "for all curves of any length (sorted or not, with missing and infinite values), all inputs, all policies and all units", "why_tests_cant": "A test compares a few curves in one or two units; the claim ranges over all curves, units and policies.", "anchors": ["src/api/curve.cpp:6-250", "src/api/quantile_mapping.cpp:5-45", "src/api/util.cpp:339-426"]}
{"id": "C177", "title": "Filling, doping, gridding and smart downscaling in other units", "statement": "fill, doping_square and doping_circle take every change of the values to their output. fill_missing and smart do so for every change of units c v + d with c not 0. gridding and gridding_nearest, for c > 0: mean, least, greatest and middle value are given in the new units, the number of values is unchanged, variance and standard deviation are multiplied by the square of c and by c, the sum by c if d = 0 (with an offset the offset is added once for every value). Calls that report an argument or read out of range do so in all units.", "quantifier": "for all grids, points, fields and values (missing and infinite ones too), all sizes, radii, elevations, structure functions and units", "why_tests_cant": "A test compares a few fields in a few units; the claim ranges over all of them and includes the calls that fail.", "anchors": ["src/api/fill.cpp:6-134", "src/api/doping.cpp:5-93", "src/api/gridding.cpp:6-131", "src/api/smart.cpp:12-66"]}
{"id": "C178", "title": "fill_missing has no preferred direction and restores linear fields", "statement": "For every rectangular field: filling the field mirrored in its rows or columns, or with rows and columns exchanged, gives the filled field mirrored or exchanged in the same way; if every valid value lies on alpha + beta*y + gamma*x then every valid value of the result does too; and a second pass leaves every valid value of the first as it is, although it may fill cells the first left missing.", "quantifier": "all field sizes of at least one row and one column, all values including missing ones, all coefficients", "why_tests_cant": "the loops keep last/next counters running in one direction, so a directional bug shows only for particular patterns of holes; a test checks one pattern", "anchors": ["src/api/fill.cpp:43-134"]}
{"id": "C179", "title": "Probabilities, masks, gradients and searches in other units", "statement": "downscale_probability gives the same probabilities if the members and the threshold are given in another unit (positive factor, any offset), and the same as the opposite comparison in a unit that counts the other way round; mask_threshold_downscale_consensus and _quantile give the result in the unit of the selected values, whatever the unit of the selecting values and their threshold; calc_gradient gives the gradient in the quotient of the units if min_range is in the unit of the base and the default in the unit of the gradient; neighbourhood_search gives its values in the unit of the array, whatever the unit of the search array, target range and delta.", "quantifier": "all fields, all units, missing and infinite values included; for the regression all rectangular fields and min_range not negative", "why_tests_cant": "a constant with a hidden unit shows only for fields near that constant in one of the units; tests use one unit", "anchors": ["src/api/downscale_probability.cpp:7-70", "src/api/mask_threshold_downscale_consensus.cpp:11-89", "src/api/calc_gradient.cpp:6-126", "src/api/neighbourhood_search.cpp:7-113"]}
{"id": "C180", "title": "Gradients and searches of mirror images", "statement": "calc_gradient and neighbourhood_search of fields mirrored in their rows or columns, or with rows and columns exchanged, give the result mirrored or exchanged in the same way.", "quantifier": "all rectangular fields, all options", "why_tests_cant": "which of several equal extremes counts depends on the order in which the window is run through; a test field rarely has ties", "anchors": ["src/api/calc_gradient.cpp:27-124", "src/api/neighbourhood_search.cpp:30-111"]}
{"id": "C181", "title": "Windows in other units, backwards, and composed", "statement": "For every statistic, window of values in another unit is the window in the other unit (variance and standard deviation without the offset, counts unchanged); a centred window of series run backwards is the result backwards; with before=true the results up to some time depend only on the values up to that time; the greatest (least) value over windows of L2 of the greatest (least) value over windows of L1 is the greatest (least) value over windows of L1+L2-1, up to the ends of the series.", "quantifier": "all rectangular arrays, all lengths (odd if centred), all missing values, both settings of keep_missing and missing_edges", "why_tests_cant": "needs pairs of runs on related inputs; tests look at single runs", "anchors": ["src/api/window.cpp:6-156"]}
{"id": "C182", "title": "Scores do not depend on units, order or repetition of the data, and are symmetric", "statement": "calc_score is the same when references (with their threshold) and forecasts (with theirs) are expressed in other units, when the pairs come in another order, and when the data are repeated any number of times; it is the same with references and forecasts exchanged, and with events and non-events exchanged by reversing the direction of the units. get_optimal_threshold and metric_optimizer_curve in other units give the same thresholds in the other units.", "quantifier": "all references, forecasts and thresholds including missing and infinite ones, all affine changes of unit, all permutations, any number of copies, all metrics, every minimizer that finds the same place in other units", "why_tests_cant": "unbounded data and a continuum of units; asymmetries appear only with missing values, values on the threshold, or for single metrics", "anchors": ["src/api/metric_optimizer.cpp: gridpp::calc_score, gridpp::get_optimal_threshold, gridpp::metric_optimizer_curve"]}
{"id": "C183", "title": "Neighbourhood scores and local distribution correction do not depend on the unit", "statement": "neighbourhood_score is the same when forecasts, references and the threshold are expressed in another unit (positive factor and offset). local_distribution_correction of background, observations and forecasts multiplied by a positive factor is its result multiplied by that factor.", "quantifier": "all grids, points, fields, references, halfwidths, metrics, thresholds, structure functions, quantile limits and factors, including inputs that are reported or read outside", "why_tests_cant": "a continuum of units and unbounded data; absolute constants only matter for values near them", "anchors": ["src/api/neighbourhood_score.cpp: gridpp::neighbourhood_score", "src/api/local_distribution_correction.cpp: gridpp::local_distribution_correction"]}
{"id": "C184", "title": "The order of the points does not matter to gridding, counting and filling; it does to doping", "statement": "Listing the same points in another order, with their values or radii moved along, does not change the result of gridding, gridding_nearest, neighbourhood_score, count, fill or the doping functions.", "quantifier": "all rearrangements of any number of points, all grids and output points, all values including missing ones, radii, minimum numbers and statistics other than the random one, including sizes, radii and numbers that are reported", "why_tests_cant": "n! orders of unboundedly many points; the order of a neighbour search is not fixed either", "anchors": ["src/api/gridding.cpp: gridpp::gridding, gridpp::gridding_nearest", "src/api/count.cpp: gridpp::count", "src/api/fill.cpp: gridpp::fill", "src/api/doping.cpp: gridpp::doping_circle", "src/api/neighbourhood_score.cpp: gridpp::neighbourhood_score"]}
{"id": "C185", "title": "Points put together: counts add up, filling can be done in parts; larger radii find more", "statement": "The count of two sets of points put together is the sum of their counts, at every cell and point. No count falls when the radius grows. fill of all points equals fill of the first ones followed by fill of the others, inside and outside, and filling once more changes nothing.", "quantifier": "all sets of points, grids, output points, fields, values and radii, including infinite, missing and negative ones", "why_tests_cant": "unbounded sets split in any way; cells exactly at the radius along an axis are left out by the search, so growth of the count with the radius is not obvious", "anchors": ["src/api/count.cpp: gridpp::count", "src/api/fill.cpp: gridpp::fill", "src/api/kdtree.cpp: get_neighbours"]}
{"id": "C186", "title": "Averages, extremes and quantiles keep the order and the range of the values", "statement": "If values are nowhere above others (missing at the same places), their mean, sum, minimum, median, maximum and every quantile are not above those of the others; the same holds at every cell for neighbourhood and neighbourhood_quantile, and for gridding. Mean, minimum, median and maximum of values in a range are missing or in that range, for calc_statistic, neighbourhood and gridding.", "quantifier": "all arrays, fields, points, radii, half widths, levels in [0, 1] and ranges, with any missing or infinite values", "why_tests_cant": "two unbounded arrays compared element by element; the running sums and slivers of the fast versions could leave the range or exchange the order for particular fields only", "anchors": ["src/api/util.cpp: gridpp::calc_statistic, gridpp::calc_quantile", "src/api/neighbourhood.cpp: gridpp::neighbourhood, gridpp::neighbourhood_quantile", "src/api/gridding.cpp: gridpp::gridding"]}
{"id": "C187", "title": "Windows and gridding to the nearest cell keep the order and the range of the values", "statement": "If rows of values are nowhere above others (missing at the same places), every value of window for mean, sum, minimum, median and maximum is not above that of the others; minimum, median, maximum and mean of values in a range are missing or in that range. The same holds at every cell or point for gridding_nearest.", "quantifier": "all arrays, window lengths (odd unless before), options before, keep_missing and missing_edges; all point sets, grids, values and minimum numbers", "why_tests_cant": "two unbounded arrays compared element by element through windows and nearest cells; window mean is undefined behaviour although it may print plausible numbers", "anchors": ["src/api/window.cpp: gridpp::window", "src/api/gridding.cpp: gridpp::gridding_nearest"]}
{"id": "C188", "title": "Downscaling keeps the order and the range of the values", "statement": "nearest, bilinear and downscaling, in all overloads, keep every relation between two input fields that holds for two missing values, makes values missing together, and passes to means with the same weights: results are in the relation value by value, or both calls end with the same error. This holds for 'nowhere above' and for 'missing or in a given range'. simple_gradient and full_gradient (all four overloads each) keep 'nowhere above'.", "quantifier": "all grids, points, coordinates, fields, series of fields, gradients and search trees, without conditions on sizes or validity", "why_tests_cant": "a statement about pairs of unbounded fields and about every way the calls can end, including errors and out-of-range reads", "anchors": ["src/api/nearest.cpp: gridpp::nearest", "src/api/bilinear.cpp: gridpp::bilinear", "src/api/downscaling.cpp: gridpp::downscaling", "src/api/simple_gradient.cpp: gridpp::simple_gradient", "src/api/gradient.cpp: gridpp::full_gradient"]}
{"id": "C189", "title": "Filling of gaps and smart downscaling keep the order and the range of the values", "statement": "If a field is nowhere above another one (missing at the same places), fill_missing of it is nowhere above fill_missing of the other, value by value and missing at the same places, and so is smart; or both calls end with the same error. The values of a filled field, and those of smart, are missing or lie in every range that contains the values of the given field.", "quantifier": "all fields of any shape with any missing or infinite values, all grids, numbers of points, structure functions, search trees and sorting functions", "why_tests_cant": "two unbounded fields compared through a stateful search for neighbours along rows and columns; a wrong weight outside [0, 1] reverses the order only for particular gaps", "anchors": ["src/api/fill.cpp: gridpp::fill_missing", "src/api/smart.cpp: gridpp::smart"]}
