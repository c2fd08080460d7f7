# Design: a Lean 4 model of pycomlink and proofs about it

## Trusted base

* The Lean 4.33.0 kernel, and Mathlib as installed. Each theorem listed in
  `MANIFEST.json` depends at most on the three standard axioms `propext`,
  `Classical.choice`, `Quot.sound` (see "Axioms" below). No axioms of our own,
  no `sorry`, no `native_decide`, no `bv_decide`.
* The hand translation from Python to Lean. Each model definition cites the
  file and lines it mirrors and lists its simplifications. The source was read
  as text, never run.
* The behaviour of external libraries where the model states it as a parameter or
  as a documented convention (list below).

## Modelling conventions

* **Numbers.** Functions that do arithmetic work over `Fl K`:
  `nan | ninf | fin x | pinf` with `x` in a linearly ordered field `K` (ℚ for
  the executable examples, ℝ where powers, exponentials or trigonometry occur).
  The NaN and infinity rules are IEEE-754's (every comparison with NaN is false,
  inf-inf and 0*inf are NaN, x/0 is NaN or signed infinity, Python/numba scalar
  division by zero raises where the code does scalar division). *Not* modelled:
  rounding, overflow of finite numbers, signed zero (the sign of x/0 is that of x).
* **Rounded numbers.** `RFl R` (`Verif/Rounding.lean`) has the values representable under a rounding `R` and the
  operations of `Fl K` followed by `R`; `Bin.binary64` (`Verif/Binary64.lean`) is round-to-nearest-even with 53
  digits, gradual underflow and overflow, proved to be a rounding, to give the nearest float, and to have the usual
  error bounds. Models over `PyFloat` run on it (C80-C83, C92-C95, C112-C113, C116, C118-C121, C124, C126, C127, C130, C143-C145, C147); `sqrt` is taken to be correctly rounded; `pow` (`PyPow`) is any function with the laws of C99 (`PowLaws`, `MonoPow`), shown to hold for the correctly rounded one. Signed zeros are not modelled.
* Functions whose control flow does not depend on arithmetic laws are written
  over an arbitrary type of values with the operations passed by a type class
  `PyFloat`. Theorems about those hold for every interpretation of the operations, thus also
  for real IEEE doubles with rounding.
* **Arrays** are `List`s, loops are folds over index ranges, in-place array
  writes are `List.set`. Loop-carried local variables are the fields of a state
  structure.
* **Exceptions** are values of `Except Err`.
* **Objects with state** (IDW tree, interpolators, model caches) are state
  machines; histories are lists of operations.
* xarray/pandas containers are reduced to the arrays, coordinate lists and
  dimension names the code actually uses.

## Layout

* `Verif/Float.lean`, `Verif/Np.lean`: number type, numpy/pandas primitives.
* `Verif/Model/*.lean`: the model, function by function.
* `Verif/Spec/*.lean`: small independent specifications.
* `Verif/Lemmas/*.lean`: helper lemmas.
* `Verif/Props/*.lean`: the property theorems, with non-vacuity `example`s.

## Property by property

| id | modelled | how it is proved |
|----|----------|------------------|
| C01-C03 | `baseline_constant` loop over any `PyFloat` | loop invariant by induction on the index; C03's range by a running invariant over `Fl K` |
| C04 | bool cast of float flags | rewriting; a witness refutes the docstring |
| C05 | same, over `Fl K` | simulation between two loop runs |
| C06-C09 | `baseline_linear` loop with state `(baseline,last_dry_i,last_dry_rsl,last_i_is_wet,found_nan)` | loop invariant that describes every prefix; C07 by simulation |
| C10-C12 | markers via `np.roll`, mask state machine | invariant; C12 from the characterisation in C11 |
| C13-C14 | `_numba_waa_schleiss_2013` | induction on the recursion |
| C15-C16 | Pastorek formula over ℝ, `np.logspace` table, `interp1d` linear | real analysis: `Real.exp`, `Real.rpow` monotonicity; interpolation lemmas |
| C17-C18 | Leijnse film transmission over ℂ, `eps_water` | algebra over ℂ; `nlinarith`/`positivity`; `eps_water` as double Debye law with its two relaxation terms and limits from `field_simp` |
| C19-C24 | `calc_R_from_A`, `calc_R_from_A_min_max` over `Fl ℝ` | case analysis + `Real.rpow` lemmas |
| C25-C26 | `a_b` validation and table dispatch; cubic spline is a parameter that interpolates its knots | case analysis; tables by `decide` over the complete finite table |
| C27 | `_calc_A_min_max` | loop invariant |
| C28-C29 | argument dictionary; `apply_ufunc(vectorize)` as map over coordinate combinations | induction over signature; congruence |
| C30-C31 | `haversine` over ℝ | Mathlib spherical angle triangle inequality |
| C32-C35 | rolling max, neighbour medians, rule, smear | windows lemmas; permutation invariance of median |
| C36-C39 | nearby rain retrieval | rolling median bounds, case analysis on NaN |
| C40-C45 | `validation/stats.py` | counting lemmas; Cauchy-Schwarz |
| C46-C49 | IDW loop, tree cache, interpolator; kd-tree query is an external function of (points, query, k, eps, bound) | convexity; induction over call histories |
| C50 | `clim_var_param` over ℝ | bounds on cos and rpow |
| C51-C55 | windows/batches/predictions with the network as a row-wise function parameter | index arithmetic by induction |
| C56-C57 | post-spectrogram part of `stft_classification` | pointwise reasoning |
| C58-C60 | file cache as a finite map with crash states; string dispatch | induction over histories |
| C61-C64 | aggregation, bounding box weights, coverage, reader | list induction |
| C65 | `a_b` with a single polarization string | case analysis; negative result |
| C66 | `waa_leijnse_2008_from_A_obs` table inversion | linear interpolation lemmas, as C16 |
| C67-C68 | `F` and column order of the nearby approach | window sums; a witness network |
| C69-C70 | object references as a heap which the caller may overwrite | rewriting along two calls |
| C71-C72 | stores of the inference functions with their `except` | list induction |
| C73-C74 | `resample_to_grid_time_series`, wet error rates | list induction, counting |
| C75 | Leijnse formula | derived from the continuity conditions of the fields at both boundaries |
| C76-C78 | composition of C01, C13 and C19's functions | induction on the WAA recursion; witness for C78 |
| C79 | composition of the four nearby functions | shift lemmas for rolling median, correction, attenuation |
| C80-C82 | same models, run on the type `RFl R` of numbers representable under a rounding `R` | ordered laws (`OrderedPyFloat`) that hold for every monotone rounding; error bounds by induction over the sum |
| C83 | `RFl` of binary64 (round to nearest even) | the roundings of the witness computed with bounds |
| C84-C86 | `OrdinaryKrigingInterpolator` as a state machine with its attributes; PyKrige is a function parameter; the default dictionary is a cell of a heap | induction over call histories |
| C87 | Gregorian day of the year, then C50's function | periodicity of cos; arithmetic on the calendar |
| C88 | `calc_stats` on a heap of cml objects; join and correlation are a parameter | induction over call sequences |
| C89 | the eight slice assignments as index functions | case analysis on the last row/column |
| C90 | module global and environment as state, the log of pip runs as output | induction over call sequences |
| C91 | `warnings.warn_explicit` with its `onceregistry` | induction over call sequences |
| C92-C93 | C42-C45's models on binary64 over ℝ with correctly rounded `sqrt` | quotients of exact integers; relative error of each step; a computed witness for mcc > 1 |
| C94-C95 | C32-C39's models on binary64 | exact subtraction facts, doubling is exact, median stays in an interval |
| C96-C99 | `stft_classification` with `mlab.specgram` modelled (windowed DFT over the exact reals, one-sided density) | DFT written with complex exponentials; C56's core |
| C100-C105 | PyKrige's ordinary kriging as linear system over the exact reals (`krMatrix`, `krRhs`, `krEst`), instance of the parameter of C84-C86 | linear algebra on the system; turning bands (`Lemmas/Spherical`) for the positive definiteness of the spherical covariance in the plane |
| C106-C111 | `a_b`, `calc_R_from_A` with the cubic not-a-knot spline in place of the parameter (`Model/CubicSpline`), exact reals | unique solvability of the spline system (diagonal dominance); the spline's Bernstein coefficients as exact rationals (`tools/gen_ituspline.py`, checked in the kernel over the complete tables); ranges, slopes and products of Bernstein polynomials are bounded by their coefficients on each whole interval |
| C112-C113 | `calc_R_from_A` for every number type (`calcR`) and the chain of C76 on `RFl R` | order laws of rounded division; x - x = 0 and induction along the WAA recursion |
| C114-C115 | the functions of C16, C24, C38 and C76 with the cubic spline of C106; nothing new is modelled | positivity of the interpolated parameters (C106) discharges the hypotheses on a and b; pointwise comparison of the two retrievals |
| C116 | `_numba_idw_loop` for every number type (`idwVal`), `np.sum` and `np.dot` in any order (`SumOf`); distances as reported by the tree | sign by induction over the summation tree; forward error analysis of weights, normalisation, products and sum |
| C117 | both functions of stats.py for arrays of any shape (`Arr`: shape and flat data), `len` of an array; the one-dimensional functions of C40-C43 are instances | case analysis on the shape; permutation invariance for the transpose |
| C118 | `rainErrorArr` for every number type and any summation order (`Sums`), `np.sqrt` correctly rounded | sign by induction over the summation; forward error analysis of differences, squares, sum, division and square root |
| C119 | `calcR` on doubles over ℝ; `pow` a parameter with error bound (`PowAccurate`) | errors of product, quotient and inverse exponent carried through the logarithm |
| C120 | `waaSchleiss` on `RFl R`, compared with the same model on exact numbers | error of one step, then induction; the step map contracts by `1 - 3 delta_t / tau` |
| C121 | `calcAMinMax` on any lawful float type and on `RFl R` with precision, `np.rint` rounded to even (`PyRint`) | minimum and differences of rounded values, four roundings per level |
| C122 | `calcAMinMax` on `Fl K` | gaps are filled by `rint` of the mean, which commutes with adding an even whole number only; witness for an odd one |
| C123 | `rainMap`: `rainChain` per link, then `interpolate` | C76, C48 and the bounds of weighted means; C77 for offsets |
| C124 | `retrieval` on `RFl R`, `pow` with `PowLaws`/`MonoPow`; on doubles with `PowClose` | `retrieval_scalar`, sign and order through each rounded operation; `netAtten_close`, `rate_close` and error of the weighted mean |
| C125 | `baselineConstant`, `baselineLinear`, `waaSchleiss`, `rainChain` on `Fl K` | relation `UpTo E` carried through both runs (`constLoop_rel`, `linLoop_rel`, recursion of the WAA, which contracts for `3 delta_t <= tau`); monotonicity of the power law |
| C126 | `baselineConstant`, `baselineLinear` on `RFl R` against `Fl K` | `linLoop_rel` with the error of one `linspace` value; strong induction for the constant baseline: the last value averaged is a dry one and exact, so the error of a mean is at most `(1 - 1/n) E + E/n` |
| C127 | `rainChainF` on `RFl R` and on doubles with `PowClose`, against `baselineConstant`, `waaSchleiss` on `Fl K` | C126, C120, C125 (exact WAA on the two baselines), bound of the exact WAA, `rate_close` |
| C128 | `baselineConstant`, `rainChainF`, `baselineLinear`, `calcAMinMax` on the parts of a record | strong induction for the constant baseline; WAA of the second piece equals that of the whole record or the baseline is NaN; the two runs of the linear baseline write the same values to corresponding places (`LinSim.step`); counterexamples for too few dry steps and for gaps |
| C129 | `nearby_wetdry`, `nearbyChain` on a network and a piece of it (`PieceFor`: same links within the radius, same lengths and levels on a range of steps, series starting `off` steps later) | windows of the piece equal windows of the whole (`window_shift`), hence drops, medians, rule and smearing; `F` and the reference level through their rolling windows; witness for the end effect by evaluation |
| C130 | a forward model (`levelAt`, `filmAt`: dry level, rain attenuation, film) followed by the modelled chains `rainChain`, `rainChainF` on doubles, `baselineLinear` + `waaSchleiss` + `calc_R_from_A`, `retrieveLink` | induction along the record for baseline and film; measurement errors by C125, rounding by C127; for the nearby retrieval the median of equal values |
| C131 | `calc_wet_dry_performance_metrics` (any number type), `calc_rain_error_performance_metrics` (exact arithmetic, one-dimensional arrays) | counts of appended lists; textbook formulas of C44 and C45 for the appended, exchanged and rescaled pairs; a witness for the correlation |
| C132 | a forward model (`a R^b L` plus `waa_pastorek_2021` or `waa_leijnse_2008` of `R`) followed by `waa_…_from_A_obs` (exact arithmetic over the reals) and `calc_R_from_A` with the spline of the ITU table | between two table points the interpolated value lies between theirs and neighbouring points are at most a factor 1.36 apart; the lower bound by concavity of the Pastorek WAA in the attenuation; b ≥ 0.67 by C106 |
| C133 | `interpolate` with `exclude_nan` on given grids (exact arithmetic), the k-d tree by its contract | the chosen indices are those with fewer than `nnear` nearer points (counting argument), so the multiset of their distances and values is determined; linearity and bounds of the weighted mean; a brute force tree as witness for ties |
| C134 | `aggregate_df_onto_DatetimeIndex` and `resample_to_grid_time_series` applied twice; the aggregation is any function for which groups combine | the descriptions of single calls (C61, C73); the groups of the fine index partition those of the coarse one (permutation of a list into its classes); witnesses for cropping, lost groups and means |
| C135 | both blackout masks (any floats) | gaps of pieces are gaps of the record and are reported alike (C11, C12), induction over the pieces; witnesses for pieces with missing ends |
| C136 | IDW maps (exact reals, any conforming tree) and the chain of C130 in front of it (exact reals) | the points used are within ρ by counting; the value lies between bounds of the values used; rates from C130 |
| C137 | both baselines, `waa_pastorek_2021_from_A_obs`, `calc_R_from_A` with the ITU splines (exact reals) | baselines from C130, look-up from C132 (with zero rain giving zero); the noise theorem from the check for negative values |
| C138 | `mlp_wet_dry`, `cnn_wd`, `wet_dry_1d_cnn` (exact numbers, networks as parameters) | results written as one formula per cell (from C55, C52), pieces by comparing the formulas; offsets: differences and detrended series are the same lists; units: sample by sample and C54; a witness for the scaling |
| C139 | `_calc_A_min_max`, `calc_R_from_A_min_max` on levels made by a loss per moment of the step (exact numbers, real rain rates, levels without gaps) | C27 with the window minimum compared step by step with the true losses; rates by monotonicity from C24 and C19; witnesses for the bounds and for power control |
| C140 | `nearby_wetdry` over exact numbers (levels numbers or NaN), and the whole nearby chain (C129) over the reals on levels built from constant dry levels and the power law | C34 with the median turned into counts of links and the window maximum into falls of single levels; then the reference level by C36, the corrections branch by branch, the rate as in C130; examples: rain seen by two of three links, one broken link of three |
| C141 | all functions with the decorator, with their parameter names, order and defaults (Verif/Model/Api.lean), called through the model of the wrapper on DataArrays with named dimensions; arguments are numbers, flags, strings, `None` or DataArrays of these. Plain numpy arrays mixed with DataArrays are not modelled; coordinate labels: C146 | C29 (slice by slice) with the binding of the concrete signatures computed; then the bodies on bound arguments. The defaults by binding equality (C28). Success (Props/ApiSucceeds.lean) from that of the channels, by extending indices of a part of the dimensions to all |
| C142 | `Api.processDataset`: the calls of the notebook loop with their keywords, `a - b` of DataArrays with broadcasting by dimension name, and `A.values[A < 0] = 0` | C141 for the three calls, a lemma about differences of DataArrays, dimensions tracked through the chain; success by extending indices of a part of the dimensions to all; rain rates by C114 |
| C143 | `haversineF`, `calcDistancesF`: `haversine` and the four matrices operation by operation in rounded arithmetic; `PyTrig` stands for numpy's `radians`, `sin`, `cos`, `** 2`, `** 0.5`, `arctan2`, of which `TrigLaws` assumes parity, special values and range | parity of each operation under a rounding symmetric in sign; the matrices by the invariant of the fill loop shared with C31; correctly rounded functions satisfy `TrigLaws` |
| C144 | the same in binary64, with `TrigClose` (errors of at most 2^-51 relative or 2^-50 absolute) for numpy's functions | error of the half chord from the Lipschitz bound of √(x² + c y²) in its roots and of arctan; bounds carried through every operation; decisions against the radius; correctly rounded functions satisfy `TrigClose` |
| C145 | `nearby_wetdry` over any number type with real values (`NumView`: errors of at most η per operation), compared with exact arithmetic; the rolling sum F is left out | order statistics of close lists are close (counting), so medians and maxima are; margins keep every comparison; instances: exact numbers (level errors), binary64 with the distances of C144 (`C145_doubles`) |
| C146 | `Labels.callL` (the decorator with `apply_ufunc`'s `join="exact"` before the call), `Labels.xrSubL` (inner join of arithmetic, `ValueError` for differing indexes with duplicates), `Labels.processDatasetL`; labels of any type with decidable equality, one index per dimension. Additional (non-dimension) coordinates and multi-indexes are not modelled | binding commutes with dropping labels, so a successful call is the unlabelled one; the labels of the result contain those of every argument, so all agree; entries by label from C142 by positions of labels |
| C147 | the nearby chain over any number type with real values (`NumView`, C145): `linkLevels` (reference and corrected levels), `linkRates` (`retrieval` with scalar `a`, `b`, no threshold on F), compared with exact arithmetic on levels that differ by at most E. The outlier filter is left out: F is a rolling sum whose order of additions is pandas' | close windows have close medians; the minimum with the reference level is 1-Lipschitz, and where the comparison for the maximum flips, minimum ≤ maximum keeps both results close; rates from C124 and the monotone power law; instances: exact numbers (`C147_level_errors`), binary64 from coordinates to rates (`C147_doubles`) |
| C148 | `processDatasetL` (C146) with the cubic spline, on datasets whose channels follow the forward model of C130 (`levelAt`) with the ITU parameters of the channel | per channel: C130 gives baseline and attenuation of the undisturbed levels, C125 bounds the effect of the level errors, C142 removes the cut of negative attenuations; the channels are put together with C142 (values), C146 (labels) |
| C149 | `calcRMinMax` and `calcAMinMax` on doubles over ℝ; `pow` and `log` parameters with error bounds (`PowClose`, `LogClose`) | errors of `log`, sum, power and product give the error of `a_max`, the error of the denominator is carried through the power law; `RateClose` for the rest of the rate, C121 for the attenuation, the argument of C139 for the resolution |
| C150 | `windowFits` (domain of rolling windows), checks in `nearby_wetdry`, `linkRows`, `reference_level_checked`, `mlpWetDry` | case analysis; a loop whose steps succeed or raise `ValueError` (`mapM_ok_or_error`) |
| C151 | `calcCoverageMask` with the buffer polygons of GEOS (`geos`, `bufferRing`: 16 segments per quarter circle, orientation of the path) as convex hulls of their vertices, exact reals | hull inside segment plus disc; disc of radius cos(π/64) inside the regular polygon with 64 vertices (triangle of centre and two vertices), both ends, path by convexity; supporting line midway between two vertices |
| C152 | `timeNs`, `truncNs`, `toGHz`, `readWith` in `binary64` (Model/Reader); times as doubles, cast by truncation towards zero | `t * 10^9 = (t * 5^9) * 2^9` has at most 53 significant bits; first failure and collision by exact rounding of the witness; relative error 2^-53 plus truncation; monotone rounding; congruence of the whole reading |
| C153 | rain scores (exact) of the results of C148 | sums of bounded terms on top of the formulas of C44 and C45; constant bias as witness for sharpness |
| C154 | `waa_pastorek_2021` generic in the number type, doubles with hypotheses on `pow` and `exp` | monotone rounding for the range; `exp(-t)` insensitive to relative errors of `t` for the accuracy; explicit rounding near one for the cancellation |
| C155 | `stft_classification` with the spectrogram of C96 (exact) | the value of C56 with the computed spectrogram, sums over rows and columns rewritten as finite sums |
| C156 | chain `baselineLinear`, `waaSchleiss`, `calcR` over `RFl R` (`rainChainLinF`, Props/LinearChain.lean) | as C127: C126_linear bounds the baseline, a lemma shared with C127 (`chain_attenuation`) carries the error through wet antenna attenuation and subtractions, `rate_of_close` through the power law; the exact linear baseline is bounded by a relation kept along the loop (`linLoop_rel`) |
| C157 | the chains of C127 and C156 over doubles on levels within `delta` of `levelAt` (C130) | C127/C156 (rounding), C125 (level errors through baseline, wet antenna attenuation, subtractions) and C130 (exact chain inverts the forward model) joined by monotonicity of the power law |
| C158 | `idwVal` and the chain of C127 over doubles, a network as a list of `DblLink` (Props/DoubleMap.lean) | C116 (rounding of the weighted mean), convexity of weighted means whatever the positive weights, Lipschitz field; rates of the links from C157 |
| C159 | `__call__` of both interpolators with the types of coordinates, grids and resolution (Model/IntGrid.lean) | case analysis against the untyped models of C48 and C84; induction over histories |
| C160 | `nearby_wetdry` on integer `pmin`: each assignment to `wet` and `F` is a C cast with a machine value `c` for NaN (Model/NearbyInt.lean); the retrieval of C79 behind it | relation between the rows of the float and the integer model, carried through `mapM`; C33, C34, C67 for where flags and `F` are NaN; truncation against a negative threshold |
| C161 | `wet_dry_1d_cnn` with binary32 rounding of data, scaled features and probabilities; `StandardScaler` an arbitrary function of column and element (Model/TfSingle.lean) | C53 applied to the rounded dataset; the numbers that stay finite from the rounding function itself; error bounds of the binary format |
| C162 | as C130 and C157 with two masks: the steps with rain, which make the levels, and the flags given to the functions | baseline too high by 0 to `E`, film between its negative and the right one, by induction over the steps of `baseline_constant` and `waa_schleiss_2013`; doubles by C125 and C127 |
| C163 | `waa_pastorek_2021_from_A_obs` for every number type (`pastorekFromAObs`, `lookupOn`), instantiated with doubles; `a_b` an arbitrary function, the grid of L359-L360 any list within the fraction 2^-45 of the exact grid (`DoubleGrid`), which `np.logspace(-10, 3, 100)` in doubles is (Model/LogSpace.lean, for every number type; exact arithmetic gives the grid of C16) | the rounded nodes stay increasing because neighbours differ by the factor 1.3 and the film is monotone (C154); error of `np.interp` between two nodes; interpolation between perturbed nodes stays within the perturbation because the film never grows faster than the sum (Props/LookupLin.lean); rate and film errors from C119 and C154; ranges of the ITU parameters from C65 |
| C164 | `baseline_constant`, `baseline_linear`, `waa_pastorek_2021_from_A_obs` on the `np.logspace` grid and `calc_R_from_A` in doubles; `a_b` an arbitrary function whose values for this link are near the exact ones | baseline from C01 and C82 (no rounding for one dry value); look-up error from C163; what remains of an observation is monotone and 1-Lipschitz (C16), so that level errors do not grow; resolution of the table from C132; rates from C119; raising from the relative error of a rounded difference, which keeps its sign, and from C83; averaged and linear baselines from C125, C126 and C130, dry steps exactly from C01 and the characterisation C08 |
| C165 | as C157; scores of the computed rates (exact arithmetic on their values); `aggregate_df_onto_DatetimeIndex` with exact means and sums | band of C157 turned into mm/h by subadditivity of powers (b ≥ 1) or Bernoulli's inequality (b ≤ 1); scores from C153; every aggregation is an aggregation of the same groups |
| C166 | levels of the model behind the chain (C130) with NaN at any steps; `NoBase` (no reference level) is an inductive predicate of wet mask and gaps | induction over the steps through `constLoop` (a mean with a NaN is NaN) and the recursion of the WAA (`min` with a NaN previous value keeps `min(A_obs, waa_max)`); `baseline_linear` from the characterisation of C08 |
| C167 | `rainChainF`, `rainChainLinF` in IEEE doubles on levels that are NaN at any steps and elsewhere within delta of the model | `GapAtt` describes the attenuation in exact arithmetic (from C166); C125 (errors do not grow, NaN stays NaN) and C127, C156 (doubles against exact arithmetic, NaN allowed) are put together |
| C168 | `calc_rain_error_performance_metrics` on the rates of a record with gaps (C166) and the rain that fell | the valid pairs written as a map over the steps with a rate; sums and means termwise |
| C169 | the chain of C167 and `calc_rain_error_performance_metrics` | C167 and the bound in mm/h of C165 at the attenuation that is left; sums termwise |
| C170 | `nearby_wetdry` (its second output F) and `retrieval` with a threshold on F, scalar `a`, `b`, exact arithmetic only (the additions of the rolling sum are reordered by bottleneck) | the drops per km and their medians are 20E-close (`close_drops`, shared with C145), rolling sums termwise; the filter replaces values only (`filteredRates_get`), the rest is C147 |
| C171 | `wetDry1dCnnDs` (Model/TfMerge): `wet_dry_1d_cnn` with its default `return_ds=True`; `xr.merge` with `compat="no_conflicts"` for variables on (cml_id, time) with the coordinates of the dataset; names of coordinates as `prob_name` excluded | cell by cell; the pipeline reads nothing but ids, times and input variables (`wetDry1dCnn_reads`), so the second call sees the same input |
| C172 | `gapMap`: the chain of C166 per link, then `interpolate` on the rates of one step; links with NaN rates are dropped by `exclude_nan` | `gapMap_idw` turns it into the map of the rates of the links that have one; C133_difference against the map of the true rain, C136_field for the field |
| C173 | `rainChainF` per link on levels with NaN, the filter of `exclude_nan`, `idwVal` in doubles (C116) on the rates that are left | C167 for the rates (one-sided, as gaps only lower them), `idwVal_between` from C116_accuracy |
| C174 | the models of C10–C12 on `received`: NaN while the level is below the sensitivity or the logger fails, otherwise the level with an error up to `δ` | C12_two_sided_gap with the values beside the gap from the bound on the change per step; C174_all through `exists_gap`; example: a sudden fall is not reported, so the bound is needed |
| C175 | `Rsd.rollingStd`, `Rsd.wetRsd` (xarray's centred rolling standard deviation with `ddof=0`, compared with a threshold, as in the workflow notebooks), then the chain of C130 | identity between variance and squared differences of pairs (`pair_sum`); two groups of steps bound it from below; false alarms are harmless by C162_false_alarms, missed steps get 0 by C162_rain |
| C176 | `RsdFlags`: flags from a standard deviation with an error up to `ε` (bottleneck's running sums are not modelled, only bounded; `C176_exact`: `wetRsd` gives such flags with `ε = 0`), then `rainChainF` in doubles | two groups of levels that differ by `A0 - 2 δ` (C175), all rain is flagged, then C162_doubles with `E = 0` |
| C177 | `Preprocess.preprocess`, `interpolateNa` (xarray's `where` and `interpolate_na` with `max_gap`, equidistant time stamps, `max_gap` in steps), then C176 | neighbouring values of a gap by filtering `List.range`; interpolation error from the change per step on both sides; C176_doubles with the larger level error |
| C178 | `resample(time='1h').mean()`, `.sum(dim='time')`, `wet_fraction`, `.where(wet_fraction < limit)` and the IDW map of the workflow notebook (Model/HourlyMap.lean); equidistant stamps from a full hour on, labels not modelled; xarray's `mean` and `sum` skip NaN, `sum` of nothing is 0 | hour by hour from the mean of the values present; linearity of the map (C133) by induction on the steps; error by C133; leaving links out: the search tree is built from the points with a value only; finding: dead links count as dry (C133, map near a data point) |
| C179 | `resample(time='15min').min()` and `.max()` of the nearby notebook (Model/NearbyWorkflow.lean; equidistant stamps, labels not modelled, NaN skipped), then `nearbyChain` (C79, C140); film of `waa_max` during the whole of a rainy interval | extremes of the levels are attained at extremes of the rate (`a R^b L` is monotone), then C140; mean between the extremes |
| C180 | `Preprocess.preprocessSeparate` (nearby notebook: thresholds, `interpolate_na` per level, difference; equidistant time stamps) beside `preprocess` (C177) | every step has a value, lies between two values, or before the first or after the last (`gap_cases`, least element arguments); gaps of each level lie within gaps of the difference; witness for the rain lost |

## Coverage of pycomlink, file by file

Everything listed is modelled in the file of `Verif/Model/` named; "not" says what of the Python file is left out.

| file in `pycomlink/` | model | not modelled |
|----|----|----|
| `processing/baseline.py` | Baseline | |
| `processing/blackout_gap_detection.py` | Blackout | |
| `processing/k_R_relation.py` | KR, ItuTables, CubicSpline | rounding inside `interp1d` |
| `processing/min_max.py` | MinMax | |
| `processing/nearby_rain_retrival.py` | Nearby | |
| `processing/wet_antenna.py` | WetAntennaSchleiss, WaaModels | |
| `processing/xarray_wrapper.py` | Wrapper, Api, Labels | `inspect` details, attributes of DataArrays |
| `processing/wet_dry/nearby_wetdry.py` | Nearby, NearbyInt, Haversine | |
| `processing/wet_dry/mlp.py` | Mlp | `get_model_file_path` (a path in the package), the network |
| `processing/wet_dry/stft.py` | Stft, Specgram (`mlab.specgram`, a parameter in C56-C57) | `nans` is inlined |
| `processing/pytorch_utils/run_inference.py` | Torch | |
| `processing/pytorch_utils/inference_utils.py` | ModelCache | `torch.load` of the file |
| `processing/pytorch_utils/pytorch_utils.py` | Torch (`build_dataloader`, `predict_batch`) | `set_device`, `load_model` (torch calls only) |
| `processing/tensorflow_utils/run_inference.py` | TfInference, TfMerge | |
| `processing/tensorflow_utils/inference_utils.py` | TfInference, TfSingle, ModelCache | `get_model_from_json`, `get_optimizer_class`, `load_model_from_local` (keras calls only) |
| `processing/tensorflow_utils/lazy_tf.py` | LazyTf | printed text |
| `spatial/coverage.py` | Coverage, CoverageBuffer | shapely (parameter in C63; C151: polygons as built by GEOS, exact arithmetic) |
| `spatial/helper.py` | Haversine | |
| `spatial/idw.py` | Idw | cKDTree (parameter with contract), two-dimensional `z` (numba then cannot give the result variable one type and raises) |
| `spatial/interpolator.py` | Idw, IntGrid, Kriging, OrdinaryKriging, Calendar | PyKrige (parameter in C84-C86; in C100-C105 modelled from its documentation, exact arithmetic, only the spherical variogram concrete) |
| `validation/stats.py` | Stats | text output (`_asdict` formatting) |
| `validation/validator.py` | Validator, CalcStats | drawing, `PointValidator` (empty stubs) |
| `util/temporal.py` | Temporal | |
| `util/maintenance.py` | LazyTf | lookup of the calling frame |
| `io/cmlh5_to_xarray.py` | Reader | HDF5 access |
| `io/examples.py`, `__init__.py` files | - | paths and re-exports only |
| preprocessing, classification and rain amount maps in `docs/notebooks/Basic CML processing workflow.ipynb`, minima and maxima in `Nearby link approach processing example.ipynb` | Preprocess, RollingStd, HourlyMap, NearbyWorkflow | the rest of the notebooks |

## Not modelled

* IEEE rounding outside C80-C83, C92-C95, C112-C113, C116, C118-C121, C124, C126, C127, C130, C143-C145, C147, C149, C152, C154, C156-C158, C161-C165, C167, C169, C173, C176, C177 and the theorems that are generic over `PyFloat`; signed zeros.
* scikit-learn / TensorFlow / PyTorch networks, PyKrige,
  shapely geometry, HDF5, HTTP: parameters of the model.
* xarray label alignment outside of the decorator and of `a - b` (C146), dask laziness, plotting, version/import plumbing.

### Conventions for library calls

* `scipy.interpolate.interp1d(kind="cubic")` (in `a_b`): a parameter `Spline`; the theorems C19-C26, C65 only use that
  it interpolates its knots, or hold for every function. In C106-C111 it is the cubic spline with not-a-knot end
  conditions (what scipy's `make_interp_spline(k=3)` computes), which is shown to exist and to be unique.
* `np.linspace` in compiled code: `start + i * step` from the first value on; implementations that assign `start` directly differ only if `stop` is not finite (the dry step
  lost in C166).
* `interp1d(kind="linear")`, `np.logspace`, `np.linspace`: modelled exactly over the reals; in C163 `interp1d(kind="linear")` is `np.interp` in doubles.
* `xr.apply_ufunc(vectorize=True)`: the core function is applied to each combination of the
  non-core coordinates.
* `rolling(time=n, min_periods=m).max/median/sum` of xarray: window of the last `n` steps,
  NaN if fewer than `m` non-NaN values, else the aggregate of the non-NaN values. `ValueError` for
  windows of length 0, `m = 0` (xarray), `m > n` and windows longer than the series (bottleneck): `windowFits`. `nearbyChain` and
  the pure `determine_reference_level` are used within this domain; `center=True` appends `(n-1)//2` NaN first.
* `np.arctan2` is `Complex.arg`; trigonometry is over the exact reals.
* `scipy.spatial.cKDTree.query` (IDW): a function parameter `knn` with contract `IsKnn` (what the
  scipy documentation promises for `eps=0`: nearest points in order, strict distance bound,
  missing neighbours reported as index `n` at infinite distance). `bruteKnn` shows that the contract
  can be met. Coordinates are finite reals.
* Arrays that an object keeps by reference (`asarray` of a float array, `self.x = x`) are `Src.alias`
  into a heap which the caller may overwrite; copies are `Src.own`.
* Types of arrays: values are floats unless stated. Integer grids (numpy raises when filling them with NaN) are in C159, integer
  levels of `nearby_wetdry` (results cut off, NaN replaced by a machine value) in C160; elsewhere numpy turns integers into floats before anything is stored.
* Neural networks are functions of a batch; theorems about single predictions assume that the network
  treats each row by itself (`net batch = batch.map f`). The casts to float32 in the tensorflow
  pipeline are in C161; the one in the torch pipeline is part of the arbitrary function `f` of a row.
* `StandardScaler`: exact mean and population variance, scale 1 for zero variance.
* Assigning an array of length other than one to an array element raises `ValueError` (numpy).
* `mlab.specgram` is a parameter; `mlab.find` exists only in matplotlib < 3.1, the model has a flag for
  it. `predict_proba` of the MLPs is a parameter; theorems assume that it treats rows of finite numbers
  one by one (it raises for infinite values, which the theorems exclude).
* `urlretrieve` may be refused, break off (leaving a partial file) or succeed, differently at each call;
  `hashlib.md5` is a parameter; `Path.glob` is modelled for patterns without wildcards.
* pandas `reindex(method=...)`, `groupby().agg()`, `.loc[a:b]`: modelled for sorted indices; time stamps
  are integers and time zones constant offsets.
* shapely (`buffer`, `cascaded_union`, `intersects`): parameters; theorems assume that the union has the points
  of its members. poligrain's intersection weights: a parameter.
* `xr.concat` of the cmlh5 reader: outer join of the time axes, coordinates concatenated if they differ.
* Film thickness etc. that would be infinite give NaN in the Leijnse model.

## Where code and documentation disagree

* `baseline.py`: a NaN wet flag counts as wet (`bool(nan)` is true), the docstring says otherwise (C04).
* `wet_antenna.py` `waa_schleiss_2013`: after a missing level inside an event Python's `min` ignores the NaN of the previous step, so the antennas count as fully wet at
  once and rain is underestimated until the event ends or the attenuation falls below `waa_max` (C166).
* `run_inference.py` `wet_dry_1d_cnn`: with the default `return_ds=True` a second call under the same `prob_name` with other predictions raises (`xr.merge` keeps no
  conflicting values); new predictions do not replace old ones (C171).
* `baseline.py` L141-L143: `baseline_linear` overwrites the baseline of the dry step before an event with `start + 0 * step` of `linspace`, so a missing level after the event
  removes that step too (C166).
* `wet_antenna.py` L174-L175, L355-L356: raising on negative `A_obs` makes the look-up corrections unusable behind `baseline_constant` with averaging: rounding of the mean
  alone can make a constant record raise (C164; with noise see C137).
* `validation/stats.py` L248-249 says a value >= threshold is wet, the code uses > (L294) (C40 ff.).
* `validation/stats.py`: `N_all_pairs` (documented as "Number of all reference-predicted pairs") is `len(reference)`, the length of the first dimension; with two-dimensional
  arrays `N_nan_pairs` can exceed it (C117).
* `k_R_relation.py` L44-46 and `nearby_rain_retrival.py` L149-150: a polarization string is said to
  be expanded, the code raises `ValueError` for two or more frequencies (C65).
* The default ITU table gives a smaller `a` at 4 GHz than at 3 GHz (C107); between 98 and 99 GHz at 200 mm/h the
  same attenuation means more rain at the higher frequency (C110).
* `baseline_constant` of a constant signal is not the signal: rounding of the mean can give a negative
  attenuation (C83). A negative `waa_max` raises the rain rate instead of lowering it (C78).
* The Matthews correlation in doubles can exceed 1 (C93).
* `xarray_wrapper.py`: calls Python would reject with `TypeError` are silently accepted (C28).
* The blackout example in docs/notebooks reverses the series for the second mask, test_blackout_gap_detection.py L25-L27 reverses
  only the markers; with the notebook's call the expected mask of the test's second series would be wrong (its missing first
  sample is masked too). The model follows the notebook (C12, C135); Verif/Conformance.lean runs both.
* `get_blackout_start_and_end` raises on DataArrays with a time dimension (C29).
* `nearby_wetdry.py`: NaN-filled shifts are truthy, so the first and last two steps of a series are
  set wet (C34). The F window has 4 steps per hour whatever `interval` is (C67),
  so that hourly series shorter than 96 steps raise `ValueError` (C150). The distance
  dataset is matched by position (C68). Integer levels give integer flags and F, with machine-dependent numbers for NaN, which the
  retrieval's filter takes for outliers on x86 (C160). The function also adds `within_r` to the caller's `ds_dist`.
* `idw.py`: `max_distance` is missing from the key of the neighbour cache (C47); the query array is kept
  by reference (C69). `interpolator.py`: same for `x`, `y` with `exclude_nan=False` (C70); a single given
  grid (`xgrid` without `ygrid`) is ignored or gives an error (C49); integer grids and all-NaN data raise `ValueError` (C159).
* `run_inference.py` (pytorch): `reflength` 0 or 1 always raises (C51); networks with several outputs give
  only NaN without an error (C71). tensorflow: `id_coord` has no effect on the selection (C72); data
  without any complete window raise `IndexError` instead of giving NaN (C53); `store_predictions` drops time indices behind the end but
  stores negative ones at the end of the series (C53).
* `stft.py`: `mirror=True` always raises (C56); the automatic dry period is shifted by one sample and is
  an empty slice, with everything classified dry, if the first window is the quietest (C57); with
  current matplotlib `dry_length` always raises (`mlab.find` is gone, C57).
* `stft.py`: no detrending, so that the classification depends on the absolute level of the signal (C98).
* `interpolator.py`: kriged rain can be negative with default arguments (C105); with one valid value kriging raises while IDW
  gives a field (C103).
* pytorch model cache: a download that breaks off leaves a file which all later unforced calls take for the
  model (C58_truncated); `list_cached_models()` globs for the literal name `.pt` and so never lists a cached
  model (C58_list_empty).
* `temporal.py`: for a new index without time zone and a non-UTC `new_index_tz` the labels of the result are
  off by the zone's offset (C61_zone); data without time zone always raise with the default arguments
  (C61_errors).
* `validator.py` `resample_to_grid_time_series`: edge groups collect all samples outside the grid's period
  (C73).
* `interpolator.py`: after all-NaN data, or if PyKrige raises, the attributes of an `OrdinaryKrigingInterpolator` belong to
  different calls (C85); its default `variogram_parameters` is one dictionary shared by all objects (C86).
  `clim_var_param` has a cycle of 365 days, so dates of leap years are off by a day from March on (C87).
* `validator.py` `calc_stats`: `cml_copy = cml` is no copy; the caller's time index is replaced by text and a second
  call raises `AttributeError` (C88). `PointValidator.__init__` lacks `self`, so its documented three arguments
  raise `TypeError` (not modelled).
* `mlp.py`: the docstring names a rolling median of 6 hours for detrending, the code takes 12 * 60 samples (12 hours of minute data);
  less than 361 samples raise `ValueError` although a prediction looks at 40 minutes (C150).
* `nearby_determine_reference_level`: documented as the median of the last `n_average_dry` dry time steps, the code takes the dry
  ones among the last `n_average_dry` time steps (C36).
* `coverage.py` `calc_coverage_mask`: `shapely.ops.cascaded_union` was removed in shapely 2; with it the function raises
  `AttributeError` (the model is that of shapely 1).
  `max_dist_from_cml` of 0 marks nothing, not even the paths (C151).
* The reader multiplies float times by 1e9 before casting: raw times less than a microsecond apart can get equal time stamps, and
  xarray then finds a duplicate index (C152).
* `lazy_tf.py`: if the device query raises in the first call, later calls succeed (C90).
* `maintenance.py`: `warn_explicit` is called without registry, so the usual "once per line" does not apply (C91).
* tensorflow model cache: entries are keyed by the last URL component only, so architecture and weights with
  the same file name end up in one file (C59_same_name_collision); a URL that ends in `/` resolves to the
  cache directory (C59_trailing_slash).

## Runs on the test suite's inputs

Verif/Conformance.lean runs the generic functions of the model with machine doubles on inputs of pycomlink/tests and compares
with the results stored there (`#guard`, tests and no proofs): blackout masks, inverse distance weighting, both score functions,
argument binding of the wrapper, Schleiss wet antenna attenuation, power law parameters at tabulated frequencies, rain rates, nearby
distances, wet/dry flags, reference levels, corrected levels and rain rates, and the positions of MLP and CNN predictions,
Pastorek wet antenna attenuation and its look-up (the look-up table rebuilt from the generic parts).
All agree to the digits the tests ask for. Not run are tests that need example files or trained networks, interpolated power law
parameters, kriging, Leijnse wet antenna attenuation and the variogram climatology. For some of these (interpolated power law
parameters, the Leijnse formula at two frequencies, the variogram formula) the formulas were also evaluated with a Python script
outside this repository and agree; that compares formulas copied by hand, not the model itself.

## Seeded bugs

`seeded/LOG.jsonl` lists wrong programs (edits of model definitions in a scratch copy) and
the theorems that failed on them. The harness (`tools/mutate.py`) rebuilds the modules below the edited one; broken
proofs are replaced by placeholders, also in lemmas, so that every theorem that can still be proved is. A property counts as
killed if one of its theorems or a lemma in its proof fails; the proof of a true claim may fail for a
superficial reason, thus "killed" is weaker evidence than "survived".

Theorem statements were also checked mechanically for independence: a script lists for every manifest theorem the
constants of its statement, and those defined in `Model/` that are not the modelled function itself or
its argument types were removed or justified.

## Axioms

`tools/print_axioms.py` prints the axioms of every theorem in `MANIFEST.json`; its output is kept
in `tools/axioms.txt`. Each theorem depends on a subset of `propext`, `Classical.choice`, `Quot.sound`.
