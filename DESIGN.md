# Formal model of gridpp (api layer and command-line client) in Lean 4

The source is `/repo` (metno/gridpp, `GRIDPP_VERSION 0.8.0.dev1`), read as text. Nothing of it is built or run.
The Lean project is `/verif/lean`. Properties are listed in `properties.jsonl`, the status of each one in
`MANIFEST.json`, and mutation tests in `seeded/LOG.jsonl`.

## 1. How the C++ is modelled

### Values
`float`/`double` become `Fl K`: `nan | pinf | ninf | fin q` with `q` in an ordered field `K`.

* Comparisons and arithmetic on `nan`/`inf` follow IEEE 754, e.g. every comparison with `nan` is false.
* Arithmetic on finite values is **exact**: rounding, overflow to infinity, denormals and signed zero are not modelled.
  `x/0` is `+inf`, `-inf` or `nan` by the sign of `x` (the zero is taken to be positive). Decimal constants are exact.
  `float` counters (`calc_score`) do not saturate at 2^24.
* Theorems are stated for every ordered field (`ℚ` and `ℝ` included). Concrete witnesses use `ℚ`.
* `sqrt`, `exp`/`log`/`pow`, `sin`/`cos`/`acos`, `atan2` come in as classes (`HasSqrt`, `HasExp`, `HasGeo`, `HasArc`,
  `HasAtan2`); where a theorem needs laws, the class `Lawful…` states them, and there is an instance for `ℝ`.
* `gridpp::MV` is `nan`. `is_valid` is "finite".

### Control outcome
A C++ call is a value of `Res α`:

* `ok a` – normal return;
* `throw e` – a C++ exception that reaches the caller (`invalid_argument`, `runtime_error`, `length_error`, `logic_error`);
* `abort` – process termination: a failing `assert` (the release flags of `CMakeLists.txt` do not define `NDEBUG`), or
  an exception leaving an OpenMP structured block (`Res.omp` turns `throw` into `abort`);
* `ub` – undefined behaviour: `std::vector::operator[]` out of range, conversion of NaN to `int`, invalid iterator ranges,
  falling off the end of a non-void function, sorting NaN.

`v[i]` on a `std::vector` is `vget v i`, which is `ub` outside the vector, so "no out-of-range access" is a theorem
about the model and not an assumption. Optional results of index searches are `Option Nat`.

### Loops, vectors, parallelism
Vectors are lists. A loop that fills `output[i]` from inputs only is a map over the index range (`Res.mapM`-style, first
failure wins). Loops with carried state are folds. `int` indices are `Int`/`Nat`: 32-bit overflow is not modelled.

An OpenMP `parallel for` is given a separate small-step account (`Verif/Model/Omp.lean`): a set of iterations, each
a sequence of writes to a shared store, run in an arbitrary interleaving. Schedule independence is proved for
iterations with disjoint writes, and the racy scalar in `neighbourhood_quantile_fast` is modelled as a shared cell. The
racy debug counter `count_stat` is left out. Which loop of the sources has which shape is by reading.

### External libraries
All are parameters of the model, constrained by the contract that a theorem names.

* boost r-tree (`RTree`, `RTree.Lawful`): `query(pred)` returns, in an unspecified order, exactly the stored values satisfying the
  predicate; `within(box)` is strict; `nearest(p,k)` returns `min k n` of the eligible values such that no omitted value is closer.
  `RTree.scan` meets the contract (`RTree.scan_lawful`). `num <= 0` is outside the contract.
* armadillo (`Arma`, `Arma.Lawful`): `inv` is exact inversion of finite matrices and throws `runtime_error` for singular ones;
  `Arma.exact` meets the contract. `rcond`, `eig_sym` (`ArmaE`) are arbitrary functions in C52.
  C76, C77, C79 and C81 assume (`ArmaE.Lawful`) that `rcond` of an invertible matrix is positive and that `eig_sym` of a symmetric matrix gives
  eigenvalues and orthonormal eigenvectors exactly; `ArmaE.exact` over ℝ meets this by the spectral theorem.
* `std::sort` on values or on pairs by the first component: some permutation that is sorted.
* boost gamma/normal distributions, `brent_find_minima`: arbitrary functions with the laws named in the theorem.
* `rand()`: a parameter (`Rnd`).

### Other simplifications
Each one is noted at the definition. Textual copies of the same code (five structure functions with spatially varying scales, the
four EnSI functions' selection step) share one definition. Several moment fields filled by one loop are one field of records.
Time loops that carry nothing from one time to the next are maps over time. Messages of exceptions are left out unless building them
reads a vector. `abs` without `std::` in `calc_gradient` is taken as the floating point function.

## 2. Trusted base

* Lean 4.33.0 kernel, and the standard axioms `propext`, `Classical.choice`, `Quot.sound`
  (`#print axioms` for each property theorem is in `Verif/Audit.lean`).
* The reading of the C++ recorded in the comment at each definition.
* Exact arithmetic in place of binary32/binary64, unbounded `int`, the external-library contracts above.

Modelled (all of `src/api` except as noted): `util`, `distribution`, `kdtree`, `grid`, `points`, `point`, `nearest`, `bilinear`,
`simple_gradient`, `full_gradient`, `neighbourhood`, `neighbourhood_search`, `neighbourhood_score`, `window`, `curve`, `gridding`,
`fill`, `doping`, `count`, `distance`, `structure`, `oi`, `oi_ensi`, `oi_ensi_multi`, `corr_points`, `smart`, `metric_optimizer`,
`calc_gradient`, `local_distribution_correction`, `transform`, `humidity`, `pressure`, `qnh`, `wind`, probability downscaling.

Of the command-line client (`src/client`), in `Model/Client` (rows from C84 on): `Util`, `Options`, `Field`, `Grid`, `KDTree`, `Variable`,
`Location` (order), `Scheme`, all calibrators and their training, all downscalers, `File` (store of fields, coordinates, grids), the files `Netcdf`,
`Text`, `Point`, `NorcomQnh` and `Fake`, `ParameterFile` with `Text`, `Netcdf` and `Simple`, `Setup`, and the main program `Driver/Gridpp`. There a missing
value is -999 and `Util::error`, which exits, is `abort`. The NetCDF library is a list of dimensions and variables with values; the random and
statistical functions of gsl and boost are parameters.

Not modelled: the deprecated names of the api, `swig.cpp`; of the client `Driver/Custom`, `Calibrator/devel`,
`DownscalerGradient::calcBaseValues` and `calcNeighbourhoodMean` (never called), the texts of help and warnings except
their layout (C157) and the defaults that they name (C161); timing and debug output, memory allocation failure.

## 3. Layout

* `Verif/Base/*`   values, outcomes, vectors;
* `Verif/Model/*`  transcription of the C++ functions (each cites file and lines);
* `Verif/Spec/*`   independent specifications used in the statements;
* `Verif/Lemmas/*` helper lemmas;
* `Verif/Props/*`  property theorems, with examples showing that the hypotheses can be met;
* `Verif/Audit.lean` axioms of every theorem named in `MANIFEST.json` (generated by `tools/sync.py`, as is `Verif.lean`).

## 4. Per property

"False" means that the negation is proved with a concrete witness; the theorem that remains has the suffix `_partial` or
states exactly where the claim holds.

| id | what is modelled | how proved | not so |
|----|------------------|------------|--------|
| C01 | `calc_statistic`, `calc_quantile` as folds | every branch is a function of the filtered list; permutation by sortedness | |
| C02 | same | induction on the list; averages between bounds | |
| C03 | same | algebra on `Σ(x-K)`, `Σ(x-K)²`; Cauchy–Schwarz for the sign | rounding |
| C04 | `calc_quantile` with floor/ceil | order statistics, piecewise-linear monotonicity | |
| C05 | `calc_even_quantiles` | index bounds from truncation, sorted sublist | |
| C06 | same | proved when `num` is at most the number of distinct values or at least the size | False otherwise |
| C07–C09 | `get_lower_index`, `get_upper_index`, `interpolate` | both scans characterised on sorted lists | |
| C10 | `point_in_rectangle` | linear algebra in the parallelogram basis | |
| C11, C13, C14 | `KDTree` queries over the tree oracle | from the r-tree contract | empty tree read outside |
| C12 | same | exact extent of the strict box test | False at distance exactly the radius |
| C15, C16 | `Grid` | division/modulo arithmetic; case analysis of the search loop | |
| C17 | same | geodetic grids | False: `get_box` builds geodetic points, throws for abs(y) > 90.001 |
| C18, C19 | `Points` copy, subset | geodetic | False for Cartesian: type of the new, empty tree |
| C20 | `nearest`, eight overloads | from C11 | False: empty values pass the size check |
| C21–C24 | `neighbourhood` | prefix-sum identity; min/max of a union; variance identity | |
| C25 | ensemble `neighbourhood` | Min, Max, Sum; Mean with equally many valid members | False in general: not pooled |
| C26 | `neighbourhood_quantile_fast` | bounds for every interleaving; one level | False: `curr_quantile` is shared between threads |
| C27, C28 | quantile neighbourhoods | empirical distribution of the clipped window | ensemble version averages per-cell fractions |
| C29 | `window` | all but Mean/Count/Sum with `keep_missing` at the first element | False there: reads `counts[-1]` |
| C30 | `window` | prefix sums | |
| C31–C33 | `apply_curve`, `monotonize_curve` | interpolation lemmas, loop invariant over the index stack | |
| C34 | `monotonize_curve` | exact extent | False for all-missing curves |
| C35 | `quantile_mapping_curve` | without quantiles, sorted arrays | False: indexes the unsorted arrays |
| C36–C38 | `fill_missing`, `fill` | scan invariant | C37 False: unbracketed cells stay missing; `fill` writes outside for an empty field |
| C39–C42 | `doping`, `gridding`, `count`, `distance` | folds over neighbour lists | empty output read outside |
| C43, C44, C73 | `bilinear` | algebra of the two cell solvers | False: small distorted cells; Cartesian with abs(y) > 90.001; cells stored north to south |
| C45 | `simple_gradient` | map lemmas, C20/C43 | missing elevation gives missing value |
| C46 | `full_gradient` | complete characterisation for right sizes | False: `_debug` on empty fields; too few times in the gradients |
| C47, C48 | `oi` | selection as list functions, Mathlib matrices for the gain | |
| C49 | same | increments in the extended range | False: gap at 0 |
| C50 | grid and full versions | flatten/unflatten | unchecked sizes read outside |
| C51 | variance | Schur complement | False: Cressman gives a negative variance |
| C52 | `oi_ensi`, `oi_ensi_multi` (8 functions) | per-point case analysis, any library numbers | False for `ebe`/`utem` with more observations than points (UB); `ebe`/`ebesc` throw `logic_error` for a gap in the members |
| C53, C54 | `calc_score` | rational inequalities on counts | missing threshold counts nothing |
| C55–C57 | `structure` | laws of `exp`, `sqrt` | False: SOAR/TOAR/Cressman with negative differences, `hmax = 0`, NaN scale |
| C58 | `transform` | `exp`/`log`/`rpow` identities, gamma oracle | False: negative Box-Cox parameter |
| C59–C61 | `humidity`, `pressure`, `qnh`, `wind` | real analysis; table bounds | False at 0 K, rh = 0; band around south (constant for pi) |
| C62 | probability downscaling | counting | False: missing threshold; unchecked sizes; terminates on unknown operators |
| C63 | `local_distribution_correction` | ordered limits, positive correlations | False: not clamped; invalid iterator range; zero correlations |
| C64, C65 | `neighbourhood_search`, `calc_gradient` | window lists, regression algebra | one-row flags unchecked; NaN for a constant base without `min_range`; ragged |
| C66 | OpenMP model | commuting disjoint writes, induction over interleavings | `neighbourhood_quantile_fast` |
| C67 | outcome `abort` | exactly which calls of the window, neighbourhood, curve, vector, gradient, search, point, gridding, filling, downscaling, interpolation and metric optimizer functions raise an exception, and of the ensemble functions, for points and grids, which report an argument; calls that terminate | False: exceptions inside parallel loops |
| C68 | element-wise overloads | map lemmas | spatial `apply_curve` unchecked |
| C69, C70 | `corr_points`, `smart` | list reasoning, sorting | `smart` with no neighbour reads an empty vector |
| C71, C72 | `RandomChoice`, `calc_distance` | membership; triangle geometry over ℝ | |
| C74 | `get_optimal_threshold` | Brent as an oracle; forecasts that are all missing give no threshold | False: comparison with the range ends has the wrong sign; with infinite forecasts the range misses finite ones |
| C75 | `neighbourhood_score` | composition of C41, C21 and C53; scores are homogeneous of degree 0, so fractions give the score of the counts | False: an empty forecast passes the size check and its first row is read (`ub`) |
| C76 | `optimal_interpolation_ensi` (C52's model) | matrix algebra over an ordered field (`Lemmas/Etkf`), model evaluated to matrices (`Lemmas/EnsiEtkf`), `Spec/Kalman` | extrapolation allowed; without it see section 5 |
| C77 | `optimal_interpolation_ensi` (both overloads) without extrapolation | as C76, filter in `Lemmas/EnsiLimit` | False as stated: `lY[e]` is one element of the matrix (column-major), not the column of the member (`c77_wrong_member`: two observations, four members). Proved (`_partial`): what the filter does for any number of observations, and the claim itself where a single observation is selected |
| C78 | `optimal_interpolation_ensi_multi_ebesc` (both overloads) | rows of the model evaluated to matrices (`Lemmas/EnsiMember`), filter in `Lemmas/EnsiLimit`, `Spec.MemberwiseOI` | complete members are the first n (the code subsets `pobs` by position) |
| C79 | `optimal_interpolation_ensi_multi_ebe` (both overloads) | as C78; `Lemmas/EnsiStandard` for the standardised ensembles | False as stated: each correlation is multiplied by n/(n - 1) (`c79_not_correlation`); with that factor proved (`_partial`), for at least as many output points as observations (otherwise C52: out of bounds) |
| C80 | `sea_level_pressure` (scalar) | model evaluated to real formulas, `Spec/SeaLevel` | False as stated: the formulas do not agree at 50 m (`c80_jump`, at 280 K). Relative humidity 0 below 50 m gives NaN (C60) |
| C81 | `optimal_interpolation_ensi_multi_utem` (both overloads) | as C76, with the standardised second ensemble (`Lemmas/EnsiUtem`: `corrUpdate_of_etkf`); the filter by `filtered` (shared with C77) | False as stated: correlations are multiplied by n/(n - 1) (`c81_not_correlation`), and where the second ensemble is constant all members become the mean although the correlations are 0 (`c81_collapse`, `c81_collapse_wrong`); with the factor and a varying second ensemble proved (`_partial`); without extrapolation as C77 |
| C82 | `gamma_inv` | check loop, then the contract of the quantile (`GammaQuantile`) | False at level 1: accepted, terminates the process; sizes unchecked |
| C83 | `get_neighbourhood_thresholds` (vec3) | C05 on the valid members | |
| C84 | client class `Field` | index arithmetic (`index_lt`, `index_inj`) | False: comparison ignores the sizes (`c84_shape_ignored`) |
| C85 | `accumulate`, `deaccumulate` | induction over time; every loop touches its own cell (`foldM_cells`) | False: a partial sum of -999 counts as missing; negative window out of bounds |
| C86 | `Calibrator::shuffle` | permutation of the places, sort as a contract | |
| C87 | `sort` | order of the extended numbers, `std::sort` | False: NaN members (`ub`); no members (`abort`) |
| C88 | `qc`, `cloud`, `phase`, `threshold` | loop invariant over the cells; case analysis of the value | False: `qc` with min > max. Option `minPrecip` of phase is described but never read |
| C89 | `calculateStat` | totals over the values present, `shifted_variance`, polyline through the sorted values | Holds; a level outside [0,1] is `ub` |
| C90 | `window`, constructor | window of times = filter of all times; C89 | Holds |
| C91 | client `KDTree`: `build`, `subTree`, `firstGuess`, `nearestNeighbour`, both `getNearestNeighbour` | induction over the tree; order invariant of `subTree`; real trigonometry for the sphere | False on the sphere (witness across the date line); holds given the separation property. Parent pointers replaced by the return of the recursion; copying of trees not modelled |
| C92 | client `Downscaler::getNearestNeighbour`, `getNearestNeighbourBruteForce` (grids and single places) | loop invariant over both loops of the scan; C91 for the tree | Partial: identical grids give own indices also where coordinates are missing; tree wrong on the sphere |
| C93 | client `DownscalerNearestNeighbour::downscaleCore`, `downscaleVec`, `Downscaler::downscale` | per-cell induction over loops | Partial: `downscaleVec` aborts for missing neighbours (witness) |
| C94 | client `File::setLats`, `setLons` | arithmetic with floor, per-cell induction | False for longitude 0: undefined behaviour (proved for all such inputs) |
| C95 | state machine: files, tags, `mNeighbourCache`; operations new, setLats, setLons, clear, both lookups | invariant over all operation sequences (tags below next, distinct, cached tables right for the present coordinates) | Partial: shared cache of the two searches (witness). Files that are copied or closed are not modelled |
| C96 | pressure downscaler: `calcPressure`, loops over points and members, assertions on the neighbour | loop lemma `fill_spec`; laws of exp for falling and returning | Partial: no neighbour ends the program (witness theorem); distance law as in C91 |
| C97 | upscaler: table of nearest output points, collection of values, `calculateStat` | places collected are exactly those the table assigns, without repetition; C89 for the statistic; C91 for the table | Partial only through the distance law of C91 |
| C98 | smart downscaler: stencil, sort by difference of elevation, mean of present values | stencil membership, oracle law of the sort, best `num` of the candidates; fold invariant for the mean | Partial: no neighbour is undefined behaviour (theorem); distance law as in C91 |
| C99 | `calcElevGradient` in `Model/Client/Gradient.lean`: sums over the stencil, fit, checks against default and bounds. Proved by an invariant that ties the sums, the minimum and the maximum to the list of usable pairs. False where the raw sums satisfy Σx² = (Σx)² (`c99_island_false`). |
| C100 | `calcLafGradient`: the extremes are carried from radius to radius in `LafSums`. Proved by induction over the radii with a pool of points seen so far, which is part of the current neighbourhood when the radii do not decrease. False for other orders (`c100_order_false`) and for missing fractions (`c100_sea_false`). |
| C101 | `gradientField`, `gradientCore`: base value by the nearest neighbour downscaler (C93), then the loops. Proved with the loop rules for fields and C99, C100. `limit` is false as stated (`c101_limit_false`). `gradientFieldBilinear` for `downscaler=bilinear`: the same loops from interpolated fields (C116). Not modelled: the unused `calcBaseValues` and `calcNeighbourhoodMean`. |
| C102 | `split` with `find_first_of`, `find_first_not_of` (npos = `none`) and `substr`; the loop has a bound on its iterations whose exhaustion would be `ub`. Proved by induction on the position against the inductive relation `Words`, whose answer is proved unique. |
| C103 | `Options` as the list of pairs and the set of keys read; `addOption`, `addOptions`, `getValue(s)` (for strings), `toString`, `operator==`, `check`. Proved with the invariant `OptionMap`; witnesses for values with a space. Not modelled: conversion to numbers by `operator>>`. |
| C104 | `getDate`, `getTime`, `getUnixTime`, `calcDate`, with boost's `day_number`/`from_day_number` written out (boost is not in the repository; its algorithm is part of the model). Proved against a calendar given only by the rule for the next day: the day number grows by one from a day to the next (case analysis, `omega`), and `from_day_number` inverts it. False before 1970 (`c104_date_false`). |
| C105 | Model/Client/Interp: index searches (loops over the list, skipping -999) and interpolate with its asserts. Proved by relating the searches to those of the library on lists without -999 and reusing the bracketing lemmas of C07; monotonicity as in C07. Missing first knot: witness of termination. |
| C106 | Model/Client/Qq: separate, slope, value, member loop, time and grid loops, train. Parameter file = function of time and point; printing left out. Specification: curve as sorted points, piecewise rule with `ContinuesWith`, usable training cases, quantiles by `StatOf`. Witnesses for the false cases. |
| C107 | Model/Client/ParameterFile: the map of places to parameters by time, setParameters, the search tree, getParameters with and without place, getNearestLocation, getTimes, getNumParameters. Not modelled: initializeEmpty, getCacheSize, the Text, Netcdf and Simple readers. Specification: history of settings, last setting for place and time. Witnesses for the false cases. |
| C108 | Model/Client/Regression: calibrateCore (polynomial, predictors), train. Predictor fields and parameters = functions of time and point. Specification: polynomial, weighted sum, sum of squared errors over the usable cases; optimality over all lines. Witnesses for the false cases. |
| C109 | Model/Client/WindDirection: getFactor, calcQnh and the two calibrators. `sin`, `cos` parameters of the model; parameter file = function of time and point. Specification: trigonometric series, standard atmosphere relation, library function. Witnesses for the false cases. |
| C110 | Model/Client/Places: mask (the dead branch `mUseNearestOnly` left out), override (`abs` taken as that of float), altitude. Specification: `InsideRadius`, `Covers` and "last place that covers", nearest place of the history of settings. Witnesses for the false cases. |
| C111 | Model/Client/Neighbourhood, all three ways of computing. Specification: `NeighbourhoodValue`, `WithinBox` over the box of the library. A negative radius from a parameter file and the error of the approximation are shown by theorems. |
| C112 | Model/Client/Diagnose (humidity). Compared with the library functions of C59 and their bounds; a value where an input is missing stays. The messages and the parsing of options are left out. |
| C113 | Model/Client/Diagnose (wind). Over the reals with sine, cosine and argument; round trip with the decimal constant for pi. Signed zeros are not modelled (calm wind). |
| C114 | Model/Client/Coastal. Grid points are handled one after the other in an order that is an argument, each once; the square and the first least and most land are specified by themselves. Partial: in-place update (order witness), missing land fractions and negative radii are not refused. Training is not modelled. |
| C115 | Model/Client/Bilinear (calcST, calcGeneral, calcParallelogram, bilinear). Cell coordinates are specified as in C43 (AtCoords); Supported says for which cells the single root kept by the client is the right one. Partial: the other orientation takes the wrong root (witness). |
| C116 | Model/Client/Bilinear (findCoords, getI/getJ, downscaleField, downscaleVec, downscaleCore). The end of the two `bool` functions without return is an argument: undefined by the standard, or harmless. Partial: five findings, each with a theorem or witness (no return, north to south, east to west, one row or missing coordinates, vector and field differ). |
| C117 | `calcCovar`, `krigMatrix`, `krigCheck` (Model/Client/Kriging); distance is an argument. Spec `krigCovariance` in Props/Client/KrigingCovar. | Case analysis on radius and scale; antitone via cross multiplication and `exp_mono`; matrix by `grid2_ok`. False of stations without elevation and of scale 0. |
| C118 | `kriging` with `krigPoint`, `krigMembers`; `Util::inverse` is an argument; `krigInvert` is the model of C158, which has the law A·B = I on regular matrices (`c118_inverse`). | Exchange of sums gives the kriging equations; loops by `forCells_spec`, `eachTime_spec`. Witnesses for division, cross validation, auxiliary weights, missing forecasts, singular matrices. |
| C119 | `krigSums`, `krigTrain`. | Induction over the cases; least squares by expansion around the mean error. False of factors without data (witness). |
| C120 | `FileData`, `FileState` (heap of fields, pointers per variable and time), `allocate`, `fillField`, `getField`, `addField`, `initNewVariable`, `clearFields`, `resolveName`; programs are lists of `FileOp`. The disk is a function; `getFieldCore` of the subclasses is not modelled. | Refinement of an array: invariant (sizes, pointers in the heap, no sharing, variables not on disk are complete) kept by each operation, induction over the program. False when a field of a new variable is added before it was used (witness). |
| C121 | `Variable`, `Variable.ofOptions`, `Variable.add`; reading numbers from texts is a class `NumReader` without laws. | Case analysis over the keys that are present. False of the maximum (for all options, and witness). |
| C122 | `zagaP0`, `zagaGamma`, `zagaInvCdf`, `zagaCdf`; the gamma distribution is a `Dist` with the laws of `GammaFamily` (a strictly increasing cdf from 0 towards 1 and a quantile that inverts it). | Case analysis and the laws of the exponential function; the gamma parameters are the only ones with the given moments. False if the linear predictor is -999 (`c122_coincidence_false`). |
| C123 | `zagaTotal`, `zagaSums`, `recalibrate`, `zagaCell`, `zagaTime`, `zagaCore`; the rows one after the other (the code: several threads). | Invariants of the loops over times, grid points, members and neighbours (`foldM_cells`, `buildM_exists`); rank of a member by counting. False with neighbours, with 6h for ensembles, and for missing values of the probability (witnesses). |
| C124 | `gaussInvCdf`, `gaussCdf`, `gaussSums`, `gaussCell`, `gaussCore`; the normal distribution is a `Dist` with the laws of `NormalFamily`. | Sums over the values that are there; variance as mean of squares minus square of mean; reflection of the sum of quantiles for the mean. False for missing members, a mean up to 0 and neighbours (general theorems and witnesses). |
| C125 | Model/Client/Bct: `getInvCdf` and `calibrateCore` of Bct.cpp; the t distribution of boost is a parameter (Spec/Bct: StudentFamily). `c125_quantile` (the value has the level in the truncated, Box-Cox transformed t distribution), `c125_level_lt`, `c125_level_unique`, `c125_missing`, `c125_level_zero`, `c125_few`, `c125_ensemble`, `c125_rank_partial`. False: no negative values (`c125_negative_false`). The option `maxEnsMean` of the help text is never read. |
| C126 | Model/Client/ParameterText: the constructor of Text.cpp on the characters of the file, with `getline`, `operator>>` for words, `int` and `float` (exact, C locale). Spec/ParameterText: numerals, words, columns, lines of a table, independent of the scanners. `c126_lines` (every text has lines, and these are used), `c126_read` (a well formed table gives the settings of its lines and the sorted times), `c126_get` (what is got for a place and time), refused: `c126_white`, `c126_columns`, `c126_number`, `c126_refused`. False: `c126_malformed_false`, `c126_place_false`, `c126_negative_false`, `c126_last_false`, `c126_unreadable_false`. |
| C127 | Model/Client/ParameterText: `write` of Text.cpp; `operator<<(float)` is a parameter `display`. `c127_unreadable_false` (a file without gaps cannot be read again, whatever `display`), `c127_empty` (undefined behaviour), `c127_round_trip_partial` (with a gap, exact numbers and short lines the same parameters are read again). |
| C128 | Model/Client/Setup.lean: the state machine of the constructor, state by state. Spec/ClientSetup.lean: a grammar of command lines and their meaning, without states. Proof: each block of the text leads through its states (Lemmas/Client/SetupLine.lean), then induction over the variables. Partial: claim false for other lines (`c128_*_false`). Objects (schemes, files) are an environment of Booleans. |
| C129 | Same model. A measure (words left, rank of the state) falls with every turn; an invariant records the words read so far. Proved for all argument lists. |
| C130 | Model/Client/SetupFiles.lean: the first loop, `Util::glob` (the file system's glob is a parameter) and the loop that opens files, with `mFileMap`. Partial: claim false if a file is read before it is written, or for an output name with `=` (witnesses). |
| C131 | Model/Client/Oi.lean: `calcRho` and the differences passed to it; specification in Spec/ClientOi.lean (`oiCorrelation`). Partial: claim false with missing elevation, coordinates or land fraction (witnesses). |
| C132 | Model/Client/Oi.lean (`oiTransform`, `oiInvTransform`), Model/Client/OiAnalysis.lean (`oiBack`); powers over `LawfulExp`. Partial: claim false for exponent 0 with amounts of 0, for missing observations, and for the correction with the variance (proved). |
| C133 | Model/Client/Oi.lean: choice of stations on regular and other grids; specification `StationChoice` (usable stations, the best, with ties). Partial: the symmetry of the square and the completeness with soar are false (proved). |
| C134 | Model/Client/OiAnalysis.lean: forecasts at the stations, single-member mode and back-transform. `arma::inv` is a parameter that is lawful (inverse, or an exception if singular). Specification: the linear system of Spec/OI.lean. Partial: false of the final field with the transform and of some options (witnesses). |
| C135 | `oiCellC`, `oiEnsemble`, `oiRinvAll`, `oiTransformMatrix` (Model/Client/OiAnalysis.lean) | Linear algebra over any ordered field with square roots (Lemmas/EtkfG.lean: `kalmanG`, for any covariances of the errors with a precision matrix); the libraries are any that compute inverses, condition numbers and eigenvectors. Specification: `Spec.InflatedUpdate`. Partial: `saveDiff` saves the difference from the mean. |
| C136 | `oiLimit`, `oiElement` | The filter is `Spec.Clamped` with the element `lY[e]`; with one station that is the member's own deviation. Counterexample with two stations. |
| C137 | `oiEnsemble`, `oiCellC` | The weights add to 0, hence their sum with the members is the change of the mean. Counterexample: bias reset to 0 without stations. |
| C138 | `oiRadarR`, `oiRinvRadar`, `oiRinvAll` | The inverse of a matrix that is scaled on a subset of indices and diagonal elsewhere (`Precision.block`); specification `Spec.radarCov`. The condition of the empty matrix is left to the library. |
| C139 | `oiCalcDelta`, `oiTrace`, `oiSquares`, `oiForecast` | Induction over stations and members. Counterexamples for missing members, one member, no stations. |
| C140 | `oiTime` with `oiBackground`, `oiBias`, `oiDelta`, `oiForecast`, `oiValidEns`, `oiCells` (Model/Client/OiAnalysis.lean) | `c140_step_partial`: the whole time step is the Kalman update in transformed space at every grid point (from C134, C135), transformed back; `c140_unchanged`; `c140_delta_partial` (from C139); `c140_station`, `c140_members`. False: `c140_dropped_false`, a member left out because of a missing value elsewhere still counts in the mean forecast at a station |
| C141 | `readForecast`, `reportLine`, `placeInsert`, `finishReports`, `TextForecast.getFieldCore` (Model/Client/FileText.lean): the characters of the file, with the stream operators of Model/Client/ParameterText.lean | `c141_read_partial` against `ReportIn`, `lastReport`, `PlaceBefore` (Spec/FileText.lean), by induction over the lines. `c141_range`, `c141_number`, `c141_white`: refusal. False: `c141_empty_false`, `c141_zero_false`, `c141_malformed_false`, `c141_last_false`, `c141_same_place_false` |
| C142 | `writeForecast`, `forecastLine`, `showMembers`, `showInt`; the way the stream shows a number is a parameter | `c142_write_partial`: each line is read as the time and the members; `c142_read_false`, `c142_place_false`, `c142_rest_false`: FileText takes the first members for the place, writes one grid point, one variable |
| C143 | `newPoint`, `pointRow`, `pointPut`, `PointFile.getFieldCore` (Model/Client/FilePoint.lean) | `c143_read_partial` against `PointIn`, `lastAt` (Spec/FilePoint.lean); `c143_roundtrip` from C142; `c143_refused`, `c143_number`. False: `c143_time_false`, `c143_unix_false`, `c143_white_false`, `c143_line_false`, `c143_last_false`, `c143_rest_false`, `c143_zero_false` |
| C144 | `newNorcom`, `norcomStamp`, `norcomMin`, `norcomLine`, `writeNorcom` (Model/Client/FileNorcom.lean) | `c144_write_partial` against `StationLine`, `TimeStamp`, `FixedDigits` (Spec/FileNorcom.lean); the minimum by induction over the times, time stamps from C104. `c144_missing`, `c144_new`, `c144_refused`. False: `c144_times_false`, `c144_zero_false`, `c144_negative_false` |
| C145 | `mainAction`, `debugLoop`, `shownAt`, `writeFlag`, `runVariable`, `runFile`, `runFiles`, `gridppMain` (Model/Client/Driver.lean); files and schemes are a structure of arbitrary functions, `DriverOps`, one object for each file name | `c145_main_partial`, with C128 and C130, against `WithoutDebug`, `Processed`, `PairDone` (Spec/Driver.lean); `c145_files` by induction over the pairs, `c145_pair`, `c145_self`, `c145_chain`, `c145_shared`; arguments `c145_flags`, `c145_run`, `c145_level`, `c145_cases`. False: `c145_shown_false`, `c145_write_false` |
| C146 | `ncIndex`, `ncIndices`, `gridValues` (Model/Client/ParameterNetcdf), NetCDF files as lists of dimensions and variables (Model/Client/Netcdf) against `rowMajor`, `ValueAt` (Spec/Netcdf) | induction over the dimensions, decomposition of the list of dimensions around the two of the grid; overflow proved for all files with a larger third dimension |
| C147 | `readNetcdf` against `ParGrid.Of` and `ParGrid.settings`; the store against `lastSetting` of C107 | loop invariants for filling the map, reuse of the theorems of C107 for any file that `Holds` the settings; witnesses for the false parts |
| C148 | `writeNetcdf` | the file written is shown to have the grid `writtenGrid`, so that C147 applies; round trip by sorted, hence different, keys; witnesses for the false parts |
| C149 | `ncField`, `ncGetVara`, `ncIndex` | the part of the variable that is read is listed by its indices, `ncGetVara_ok`; roles of dimensions give the position; loops over cells by `foldM_cells`; witnesses for the false parts |
| C150 | `ncWriteVar`, `ncPutVara` | every value of the variable is either in the part of the last time that has it or unchanged, `ncPutVara_ok`; round trip with C149; witnesses for the false parts |
| C151 | `latLonGrid` | as C149 for the layout with the dimensions of the grid only, then the row-major number of the cell in either order; witness for the false part |
| C152 | `openNetcdf` | independent description `ForecastGrid.Of` of what the file says; grids by C151, coordinates by C94; the false parts are proved for all files of the kind |
| C153 | `defineAltitude`, `writeAltitude` | the element that is used is shown to be the row-major number of the cell in every allowed layout; then as C150; round trip with C151; false parts for all files of the kind or by a witness |
| C154 | `appendGlobalAttribute`, `prependGlobalAttribute`, `getGlobalAttribute`, `defineGlobalAttributes` (attributes as a list of names and texts; the time stamp is a parameter) | induction on the runs, from the last one; false parts: `Conventions` is only set when it is already there and not empty, a character 0 cuts the old text, a text over the limit is replaced |
| C155 | `writeNetcdfCore` with `defineElevations`, `defineTimes`, `defineEns`, `defineReference`, `defineField`, `writeTimes`, `writeReference`, `writeElevations`, `writeField` (attributes of variables left out; a dimension without a fixed size has its final size) | each step keeps a fine file and changes only the variables it names (`OnlyChanges`); induction over the variables for defining and for writing; C150 and C153 for the values; false parts have witnesses |
| C156 | `writeNetcdfCore` then `openNetcdf` | the layout found in the new file is the layout after writing (names of new dimensions are not those of the grid); `GridValues` does not depend on dimensions that were added; variables of the grid are not changed (`OnlyChanges`); then C152 and C155; false parts have witnesses |
| C157 | `formatDescription` with `formatLoop`, `titlePart`; words from `split` (C102) | induction over the words: the text so far is lines of words (`lineText`); the chain of lines keeps that the next word did not fit; false parts have witnesses |
| C158 | `inverse` with `luSolve`, `pivotFrom`, `exchangeRest`, `backRow`: LU factorization of Boost as elimination with exchange of rows, right hand sides together with the matrix | induction over the size: either all equations hold for the solution or a vector that is not 0 is mapped to 0; then Mathlib's determinant (`Matrix.exists_mulVec_eq_zero_iff`, commuting inverses) |
| C159 | `utilRegression` with `luSolve`, `fdot`, `regressionColumns` | C158 for the products of the columns (singular exactly for dependent columns, over an ordered field); normal equations; squared error of other coefficients is that of the solution plus a square |
| C160 | `coastTrain` with `coastPlaces`, `coastDatum`, `trainRange`, `trainOffset` (Model/Client/CoastalTrain.lean), using `utilRegression` of C158/C159 | the loop ends at the first places with least and most land (as in C114); the rows are the pairs of the specification; C159 gives the least squares, columns 1 and gradient are independent iff two gradients differ; the offset by completing the square. False when the forecast at sea is missing (witness) |
| C161 | Model/Client/Schemes: constructors of the 24 calibrators and 7 downscalers as lists of steps (read an option, test, check), getScheme; Spec/ClientSchemes: the options and defaults of the help text. Numbers are exact; members not read from options are left out. | Props/Client/Schemes: induction over the steps for arbitrary options (same members with a default added; exactly which keys are read), the tables of help text and constructors compared by kernel evaluation. False with the exceptions listed in the theorems; witnesses c161_*_false. |
| C162 | Model/Client/Likelihood: getPdf, my_f and train of both calibrators, logLikelihood; the densities of boost and the simplex search of gsl are parameters; conversions between float and double are left out. Spec/Likelihood: likelihood as a product of densities, cases by textbook statistics, what a search should find. | Props/Client/Likelihood: the sum of logarithms is the logarithm of the product by induction over the cases, the logarithm is strictly increasing; predictors by C89, distribution by C122. Witnesses for each part that is false (c162_*_false). |
| C163 | Model/Client/FileKind: getScheme, FileNetcdf::isValid and the options of FileNetcdf; warnings left out; the constructor of FileNetcdf is that of C152. Spec/FileKind: the types of the help text, a file that has one of several variables. | Props/Client/FileKind: cases over the type; completeness by inverting the constructor. Witnesses for the parts that are false. |
| C164 | Model/Client/FileFake: getElevs, getLandFractions, setLandFractions, hasSameDimensions, the constructor and getFieldCore of FileFake (elevations and times left out); setElevs is in Model/Client/FileText, setLats and setLons are those of C94. Spec/FileFake: the last grid of a size in a list. | Props/Client/FileFake: invariant by induction over the settings; the field by the loop rule for fields; undefined behaviour of Fake from c94_zero_false. |
| C165 | Model/Client/ParameterSimple: the constructor and getTimes of ParameterFileSimple, operator[] (both versions), isValid of Parameters, getCacheSize; the look-up is that of C107. | Props/Client/ParameterSimple: the file is computed, then the look-ups are unfolded; false for files with more sets: getTimes stays [0] (c165_times_false), and a second place makes the search undefined as the tree is not rebuilt (c165_place_false). |
| C166 | Model/Client/DownscaleFile: the loop over times that nearestNeighbour, bilinear, smart, pressure and upscale share, with the fields of two files (or one file and two variables) in memory as in C120; what is done to the two fields of a time is an argument. Downscaler::downscale, Bypass. Left out: one file with one variable (the fields alias), the third field of gradient. | Props/Client/DownscaleFile: invariant over the times, with the number m of leading times of the output variable that are in memory; c166_files says what happens for every m, c166_output_partial is the claim for m = 0 or all times, c166_lost_false the witness for m = 1 of 2; c166_nearest_partial composes it with C93. No calibrator or downscaler of the client reads a part of the times, so that the driver does not meet the false case; a program using the library can. |
| C167 | Model/Client/TrainFields: both base versions of Calibrator::train; the method is an argument (for example those of C108 and C162). | Props/Client/TrainFields: induction over the cases, members of a point from C69. |
| C168 | `getStatistic` | the statistics and their names, for all texts; False: no name gives the variance |
| C169 | `oiFullPoints`, `oiPoints`, `oiFullGrid`, `oiGrid` (`Model/OI.lean`). `Spec.Rearranged π` (Spec/OIOrder.lean) says that observation `i` of one call is observation `π i` of the other, for those present. Proved by: the same usable observations (through `π`), two selections of the best `max_points` are the same set without ties (`selection_match`), the permuted matrix has the permuted inverse, and the limits are the same. **Finding**: with ties and `max_points` > 0 the result depends on the order (`c169_ties`). |
| C170 | `neighbourhood` (`Model/Neighbourhood.lean`). Every deterministic statistic is a function of the values in the square (`FromSquares`, from C21–C23); the square of half width `h1 + h2` is the union of the squares of half width `h1` around the cells of the square of half width `h2` (`vals_square_add`), and a maximum is determined by its upper bounds. |
| C171 | `neighbourhood`, `neighbourhoodQuantile`. `Spec.inUnits c d v` (Spec/Units.lean). The statistics of C02–C05 under an affine change; quantiles through the polyline of the sorted values, reversed for a negative factor. |
| C172 | `neighbourhood`, `neighbourhoodQuantile`. `Mirrored` relates two fields cell by cell; the squares are permutations of each other (`square_perm`), and the statistics do not depend on the order (C01). |
| C173 | `oiFullPoints`, `oiPoints`, `oiFullGrid`, `oiGrid` (`Model/OI.lean`). `Spec.inUnits`, `Spec.inUnitsEach` (Spec/Units.lean). Every step commutes with the change: the selection reads validity and correlations only, ratios of variances are unchanged, departures are multiplied by `c`, the product is linear, and the limits on the increment change places for `c < 0` (`limitIncrement_scale_neg`: the first two and the last two cases exclude each other). |
| C174 | `ensiPoints`, `ensiGrid`, `ebescPoints`, `ebescGrid`, `ebePoints`, `ebeGrid` (`Model/Ensi.lean`). `Spec.ensInUnits` (Spec/Units.lean). The perturbations at the observations are multiplied by `c`, the inverse error variances by `1/c²`, so the matrix to be inverted and its eigenvectors are the same; the mean is only computed from valid members. For `ebesc` and `ebe` the departures of each member are multiplied by `c` and all correlations are the same. **Finding**: the second ensemble of `ebe` (and of `utem`) is compared with `default_min_std` = 0.0013 whatever its unit; in kilometres instead of metres the observations have no effect (`c174_second_ensemble`). |
| C175 | Units of a field (Spec/Units: `inUnits`, `times`, `UnitChanges`, `debugInUnits`) and the overloads of nearest, bilinear, simple_gradient, full_gradient and full_gradient_debug (Model/Nearest, Bilinear, Gradient). Each overload is shown to commute with the change of units as an equation between results, so that failing calls fail alike; the stack of fields of full_gradient to grids (values, gradients, elevations downscaled as one three-dimensional field) is followed field by field. |
| C176 | `interpolate`, `applyCurve` and its overloads, `monotonizeCurve`, `quantileMappingCurve` (Model/Util, Model/Curve) in other units (Spec/Units). Order and validity are kept by an increasing change of units, slopes are multiplied by `c'/c`. `PolicyUnits` says which policies are covered. **Finding**: `monotonize_curve` compares with a tolerance of 0.1 whatever the unit (curve.cpp:178); a curve given in kilometres instead of metres loses points (`c176_monotonize_tolerance`). |
| C177 | `fill`, `dopingSquare`, `dopingCircle`, `fillMissing` (Model/Fill), `smart` (Model/Smart), `griddingG`, `griddingP`, `griddingNearestG`, `griddingNearestP` (Model/Gridding) in other units. Loops are compared step by step (`foldM_sim2`); the statistics by `stat_inUnits` and `quantile_inUnits` of C171. |
| C178 | Props/FillLaws.lean: from the exact characterisation of C36 (result of each cell = mean of the interpolations across the gap in its row and in its column) it follows that mirroring and exchanging rows and columns commute with filling, that linear fields are restored, and that a second pass keeps valid values. Witness that a second pass may fill more: four corners. |
| C179 | Props/ProbabilityUnits.lean, Props/SearchLaws.lean: the models are compared step by step in both units (`foldM_sim2`); the regression through its characterisation in C65 (variance and slope of affinely changed pairs). |
| C180 | Props/GradientLaws.lean, Props/SearchLaws.lean: the pairs of a window of the mirror image are a permutation of those of the window (`Mirrored.perm` of C172), and the results specified in C64 and C65 do not depend on the order unless there are ties. False with ties: the first of the equal extremes counts. |
| C181 | Props/WindowLaws.lean: from the exact results of C29 (`WindowValue`), and for the composition `extreme_parts`: the extreme of the extremes of parts is the extreme of the whole. Partial because the mean and the count read outside (C29). |
| C182 | `calc_score`, `get_optimal_threshold`, `metric_optimizer_curve` in other units, other orders, repeated, exchanged: counts of outcomes, algebra of the textbook scores (ETS is a function of HSS, so it is symmetric in events). False: Kss exchanged, missing forecasts, Ts reversed, values on the threshold |
| C183 | Props/LocalUnits.lean: `neighbourhood_score` (gridding of C177, tables cell by cell) and `local_distribution_correction` (pairs, sort, quantile curves and interpolation of C176) compared step by step in both units, all outcomes. False: the limits 0.01 and 0.1 are absolute numbers |
| C184 | Props/PointOrder.lean: the neighbours found among the rearranged points are those of the original ones renumbered, so the aggregated values are a permutation and the statistic (C01) is equal; for the nearest cells the groups are permutations. Built on C38, C40–C42, so for every lawful search tree. False of doping: the last observation wins |
| C185 | Props/PointUnion.lean: the neighbours among two lists put together are those of the first and, shifted, those of the second; a point found with a radius is found with a larger one, although points at exactly the radius along an axis are not found. Built on C38 and C42. False with `outside` |
| C186 | Props/Averages.lean: insertion keeps two sorted lists ordered element by element, so order statistics and the polyline through them (C04) are monotone; the squares of neighbourhoods (C21–C23, C28) and the neighbours of gridding (C40) pick the same places in both |
| C187 | Props/AveragesMore.lean: windows are slices at the same places of both rows and are missing together (C29), the nearest cells do not depend on the values (C184); then C186. Partial: window mean, and sum with keep_missing, are undefined behaviour (C29) |
| C188 | Props/DownscalingOrder.lean, Props/FullGradientOrder.lean: a relation between outcomes of two executions that is carried through every step (bind, loops, reads), so that the overloads follow by their structure; the value in a cell is a mean with weights that depend on the location only (C43); in full_gradient to grids values and gradients are downscaled together, so that every layer has a relation of its own |
| C189 | Props/FillOrder.lean: both executions of the loop over a line have the same `last` and `next` with last <= x <= next (invariant), so that the weights are the same and in [0, 1]; smart chooses points without the values; relation between outcomes as in C188; both keep every relation passed on by means that holds for missing values, hence order and range (a mean of a list as repeated means of two values) |

Inside external libraries and therefore only available through a contract: Brent minimisation, gamma and normal quantiles, matrix
inversion and eigen-decomposition, the r-tree.

## 5. Findings about the source

Not part of a property:

* EnSI: the mean at an observation is taken over all members valid there, also those left out of the analysis.
* `Points(KDTree, elevs, lafs)` does not check sizes; `Point` swaps latitude and longitude for Cartesian coordinates.
* `get_statistic("variance")` is `Unknown`; `compatible_size` accepts empty fields.
* Constants without a unit make results depend on the unit of the input: 0.0013 for the spread of the second ensemble (oi_ensi.cpp, `c174_second_ensemble`), 0.1
  for curves (`c176_monotonize_tolerance`).
* `calc_distance` falls off the end of the function for coordinate types other than the two.
* `DownscalerGradient::calcBaseValues` (never called) divides the sum of the land fractions by the number of values with elevation
  (src/client/Downscaler/Gradient.cpp:252).

Of the client, each with a proof that the property as stated is false (`_false` theorems; the notes in `MANIFEST.json` have the conditions
under which it holds):

* Undefined behaviour: a longitude of exactly 0 (C94; so no `FileFake` can be made, C164), `getI`/`getJ` without a return value (C116), `6h` without
  `popVariable` (C123), negative times in parameter files (C126), arrays of fixed size for NetCDF dimensions (C146), a file without
  coordinates (C164).
* Wrong variable or condition: `Variable::add` reads the maximum from `min` (C121), division in kriging subtracts 1 (C118), cross validation uses
  a position as a station number (C118), inverted test for `Conventions` (C154), integer division in the training of zaga (C162),
  `logLikelihood` uses the distribution instead of the density (C162), raw sums compared before division in the elevation gradient (C99), the
  else-if in `limit` (C101), `epsilonC` is replaced by `epsilon` (C161).
* Fields changed in place while neighbours are still to be read: C114, C123, C124.
* -999 used as a number: singular matrices (C118), missing predictors (C108), missing parameters (C109), missing forecasts in training (C160).
* What is written cannot be read again: parameter files in which every time and place has parameters (C127), text forecasts (C142), missing
  times (C155).
* Help text: defaults and options that are not those of the code (C161), file types that are not found (C163).

## 6. Mutation testing

`tools/mutate.py seeded/mutants_*.jsonl` applies one edit at a time to a scratch copy of the project, rebuilds everything that depends on
the edited file, and records which theorems fail. `seeded/LOG.jsonl` has one line per attempt; survivors led to tighter theorems
or are explained there. An edit that survived and was then caught has a second line with the tightened theorem.
