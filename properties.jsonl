{"id": "C01", "title": "Constant baseline reproduces the signal when dry", "statement": "baseline_constant(trsl, wet, n) returns a series of the same length; its first n values are the signal itself, and at every later time step that is flagged dry the baseline equals the signal at that step.", "quantifier": "every signal (including NaN and infinite samples), every wet/dry flag series of the same length, every n >= 1, every index", "why_tests_cant": "the claim ranges over all series lengths and all wet/dry patterns; a test fixes one pattern", "anchors": ["pycomlink/processing/baseline.py::baseline_constant", "pycomlink/processing/baseline.py::_numba_baseline_constant"]}
{"id": "C02", "title": "Constant baseline is frozen during a wet event", "statement": "If a wet event starts at step s >= n (flag wet at s, dry at s-1) then at every step of that event the baseline equals the mean of the n baseline values before s; if the series is already wet at step n-1, the baseline stays at the signal value of step n-1 until the event ends. For n = 1 the level is exactly the last dry signal value. For n = 0 a series that is wet throughout gets the baseline 0.", "quantifier": "every signal, flag series, n >= 1, every wet event and every step inside it", "why_tests_cant": "events can start anywhere, have any length, and the averaging window may reach into earlier events", "anchors": ["pycomlink/processing/baseline.py::baseline_constant", "pycomlink/processing/baseline.py::_numba_baseline_constant"]}
{"id": "C03", "title": "Constant baseline is causal and never leaves the range of the signal", "statement": "The baseline up to step i depends only on signal and flags up to step i, and if the signal up to i is finite and within [lo, hi], so is the baseline at i.", "quantifier": "every pair of inputs agreeing on a prefix; every finite signal and bounds lo, hi", "why_tests_cant": "non-dependence on the future is a statement about all pairs of futures", "anchors": ["pycomlink/processing/baseline.py::baseline_constant"]}
{"id": "C04", "title": "NaN wet flags in baseline_constant", "statement": "The docstring promises that NaNs in `wet` lead to NaNs in the baseline. What the code does for every input: a NaN flag is treated exactly as the flag wet=True, so NaN flags never by themselves produce a NaN baseline.", "quantifier": "every signal, every float flag series with NaNs at arbitrary positions, every n >= 1", "why_tests_cant": "shows equality of two calls for all NaN placements", "anchors": ["pycomlink/processing/baseline.py::baseline_constant"]}
{"id": "C05", "title": "Constant baseline commutes with offset and gain", "statement": "Adding a constant to a finite signal adds that constant to the baseline, and multiplying the signal by a constant multiplies the baseline by it; hence the attenuation signal-baseline is invariant under a level offset.", "quantifier": "every finite signal, flag series, n >= 1, every offset and every factor", "why_tests_cant": "algebraic law over all inputs", "anchors": ["pycomlink/processing/baseline.py::baseline_constant"]}
{"id": "C06", "title": "Linear baseline interpolates each closed wet event", "statement": "For flags without NaN, baseline_linear equals the signal at every dry step and at step 0; at a wet step lying between its last preceding dry step p and next dry step q it equals rsl[p] + (i-p)*(rsl[q]-rsl[p])/(q-p); steps of a wet event that never ends within the series are 0.", "quantifier": "every finite signal, every NaN-free flag series, every index", "why_tests_cant": "ranges over all event patterns, including events that touch each other's end points and unfinished ones", "anchors": ["pycomlink/processing/baseline.py::baseline_linear", "pycomlink/processing/baseline.py::_numba_baseline_linear"]}
{"id": "C07", "title": "ignore_nan equals forward filling the flags", "statement": "baseline_linear(rsl, wet, ignore_nan=True) equals baseline_linear on the flag series in which each NaN is replaced by the last preceding flag (the flag of the first step counts as dry, as everywhere in this function).", "quantifier": "every signal, every flag series with NaNs anywhere", "why_tests_cant": "equality of two calls for all NaN placements", "anchors": ["pycomlink/processing/baseline.py::baseline_linear"]}
{"id": "C08", "title": "A NaN flag invalidates exactly its own wet event", "statement": "With ignore_nan=False a NaN flag counts as wet and, when the wet event containing it ends, the baseline is NaN at every step strictly inside the event; wet events without NaN flags get the same values as if the NaN were not there; if the event never ends its steps stay 0.", "quantifier": "every finite signal, every flag series with NaNs anywhere, every index", "why_tests_cant": "ranges over all placements of NaNs and events", "anchors": ["pycomlink/processing/baseline.py::baseline_linear", "pycomlink/processing/baseline.py::_numba_baseline_linear"]}
{"id": "C09", "title": "Linear baseline stays within the signal range and is time-reversible", "statement": "For NaN-free flags whose first and last step are dry, the baseline at each step lies between the smallest and largest dry signal value, and reversing signal and flags in time reverses the baseline.", "quantifier": "every finite signal and NaN-free flag series that starts and ends dry", "why_tests_cant": "a symmetry over all inputs", "anchors": ["pycomlink/processing/baseline.py::baseline_linear"]}
{"id": "C10", "title": "Blackout mask marks only missing samples", "statement": "created_blackout_gap_mask_from_start_end_markers returns a mask of the length of rsl that is True only where rsl is NaN, and it is True at i exactly if there is a start marker at some s <= i, every sample after s up to i is NaN, and no end marker lies in [s, i].", "quantifier": "every rsl series and arbitrary start/end marker series of the same length", "why_tests_cant": "full characterisation over all marker patterns", "anchors": ["pycomlink/processing/blackout_gap_detection.py::created_blackout_gap_mask_from_start_end_markers"]}
{"id": "C11", "title": "Which gaps the blackout detection reports", "statement": "With markers from get_blackout_start_and_end, a maximal NaN gap that does not start at step 0 is masked completely if the sample before it is below the threshold and the (cyclically) preceding sample is not NaN, and not at all otherwise; a gap starting at step 0 is never masked by the forward pass.", "quantifier": "every rsl series, every threshold, every gap", "why_tests_cant": "all gap layouts, including isolated samples between two gaps and the wrap-around at the series ends", "anchors": ["pycomlink/processing/blackout_gap_detection.py::get_blackout_start_and_end", "pycomlink/processing/blackout_gap_detection.py::created_blackout_gap_mask_from_start_end_markers"]}
{"id": "C12", "title": "Two-sided blackout mask: symmetry and threshold monotonicity", "statement": "The documented two-sided mask (forward mask OR reversed mask of the reversed series) commutes with time reversal, masks a gap entirely or not at all, and raising the threshold never unmasks a sample.", "quantifier": "every rsl series and all pairs of thresholds t1 <= t2", "why_tests_cant": "symmetry and monotonicity relate two runs on arbitrary inputs", "anchors": ["pycomlink/processing/blackout_gap_detection.py::get_blackout_start_and_end", "pycomlink/processing/blackout_gap_detection.py::created_blackout_gap_mask_from_start_end_markers"]}
{"id": "C13", "title": "Schleiss WAA never exceeds observed attenuation or its maximum", "statement": "For every step after the first, waa_schleiss_2013 is at most waa_max and at most rsl-baseline, so the corrected attenuation rsl-baseline-waa is never negative; it is never negative itself if waa_max >= 0, delta_t/tau >= 0 and rsl >= baseline; it is NaN exactly where rsl-baseline is NaN; the first value is 0.", "quantifier": "every signal, baseline, flag series and parameters with tau != 0", "why_tests_cant": "bound on a recursion over an unbounded series", "anchors": ["pycomlink/processing/wet_antenna.py::waa_schleiss_2013", "pycomlink/processing/wet_antenna.py::_numba_waa_schleiss_2013"]}
{"id": "C14", "title": "Schleiss WAA ramps up exponentially in sustained rain", "statement": "During a wet run in which rsl-baseline >= waa_max, with 0 <= 3*delta_t/tau <= 1 and starting value w0 <= waa_max, after j steps the WAA is waa_max - (waa_max-w0)*(1-3*delta_t/tau)^j; it increases monotonically towards waa_max. At non-wet steps it is min(rsl-baseline, waa_max).", "quantifier": "every run length j, every parameter set in range, every start value", "why_tests_cant": "closed form of a recursion for all lengths", "anchors": ["pycomlink/processing/wet_antenna.py::waa_schleiss_2013", "pycomlink/processing/wet_antenna.py::_numba_waa_schleiss_2013"]}
{"id": "C15", "title": "Pastorek WAA is bounded by A_max and increases with rain rate", "statement": "For A_max > 0, d > 0, zeta > 0 and R >= 0, waa_pastorek_2021 lies in [0, A_max), is 0 exactly at R = 0, strictly increases with R, and is NaN exactly where R is NaN; it is A_max*(1 - exp(-d R^zeta)), so proportional to A_max and increasing in d; a scalar (0-d) R raises.", "quantifier": "every rain-rate array and all positive parameters", "why_tests_cant": "inequalities over the reals", "anchors": ["pycomlink/processing/wet_antenna.py::waa_pastorek_2021"]}
{"id": "C16", "title": "WAA derived from observed attenuation is consistent", "statement": "waa_pastorek_2021_from_A_obs raises on negative A_obs and on A_obs beyond the look-up table; otherwise 0 <= WAA <= A_obs, WAA < A_max, WAA and A_obs-WAA are monotone in A_obs, WAA(0)=0, NaN stays NaN, and at A_obs = A_rain_k + WAA(R(A_rain_k)) of a table node it returns exactly WAA(R(A_rain_k)).", "quantifier": "every A_obs series, every link length, frequency parameters a, b > 0, all positive model parameters", "why_tests_cant": "properties of an interpolated inverse for all reals", "anchors": ["pycomlink/processing/wet_antenna.py::waa_pastorek_2021_from_A_obs", "pycomlink/processing/wet_antenna.py::waa_pastorek_2021", "pycomlink/processing/k_R_relation.py::calc_R_from_A"]}
{"id": "C17", "title": "Leijnse WAA vanishes at zero rain", "statement": "The Fresnel-film expression of waa_leijnse_2008 is exactly 0 dB for zero film thickness, so forcing waa=0 where R==0 changes rounding noise only and introduces no jump.", "quantifier": "every frequency, temperature, complex antenna refractive index and thickness for which the reference transmission is non-zero", "why_tests_cant": "complex identity over all parameters", "anchors": ["pycomlink/processing/wet_antenna.py::waa_leijnse_2008"]}
{"id": "C18", "title": "Water permittivity is physical", "statement": "For f >= 0 and temperatures between 205 K and 339 K eps_water has real part > 0 and imaginary part >= 0 (absorbing medium with the e^{-iwt} sign convention used), equals the static permittivity at f = 0, tends to 3.52 + 7.52*(1-300/T) for high frequencies, and never divides by zero; its real part decreases strictly with the frequency between these two values, its imaginary part is at most half their difference, and both follow the double Debye law with relaxation frequencies g and 39.8 g, g = 20.2 + 146.4 t + 316 t^2 GHz, t = 1 - 300/T, and intermediate permittivity 0.0671 times the static one.", "quantifier": "every frequency and every temperature in range", "why_tests_cant": "rational function inequality over two real variables", "anchors": ["pycomlink/processing/wet_antenna.py::eps_water"]}
{"id": "C19", "title": "Rain rate: NaN, sign and threshold behaviour", "statement": "calc_R_from_A returns, element by element: NaN exactly where A is NaN, 0 where A is negative, and otherwise (A/(a L))^(1/b) or 0 if that is below R_min; so each result is NaN, 0 or >= R_min, and never negative.", "quantifier": "every attenuation series, a > 0, L > 0, b > 0, every R_min", "why_tests_cant": "all real inputs and all NaN placements", "anchors": ["pycomlink/processing/k_R_relation.py::calc_R_from_A"]}
{"id": "C20", "title": "Rain rate is monotone", "statement": "calc_R_from_A is non-decreasing in A, and non-increasing in L and in a (for non-negative A); it depends on A and L only through A/L.", "quantifier": "all pairs of inputs", "why_tests_cant": "relational property over reals", "anchors": ["pycomlink/processing/k_R_relation.py::calc_R_from_A"]}
{"id": "C21", "title": "k-R power law round trip", "statement": "For R >= max(R_min, 0), calc_R_from_A(A = a R^b L) returns R; conversely a*calc_R_from_A(A)^b*L = A whenever the returned rate is not cut by R_min and A >= 0.", "quantifier": "every R, a > 0, b > 0, L > 0", "why_tests_cant": "inverse-function law over reals", "anchors": ["pycomlink/processing/k_R_relation.py::calc_R_from_A"]}
{"id": "C22", "title": "Exactly two argument combinations are accepted", "statement": "calc_R_from_A and nearby_rainfall_retrival accept either (f_GHz and pol, no a, no b) or (a and b, no f_GHz, no pol), and raise ValueError on each of the other 14 combinations before computing anything.", "quantifier": "all 16 presence patterns and all values", "why_tests_cant": "ranges over values as well as patterns, and over both entry points", "anchors": ["pycomlink/processing/k_R_relation.py::calc_R_from_A", "pycomlink/processing/nearby_rain_retrival.py::nearby_rainfall_retrival"]}
{"id": "C23", "title": "Array-valued power-law parameters need matching counts", "statement": "If a and b are 1-D arrays of length m > 1, calc_R_from_A succeeds exactly if the number of non-negative non-NaN entries of A equals m, so a single NaN or negative sample in a series whose parameters vary per sample raises instead of returning.", "quantifier": "every A and every m", "why_tests_cant": "the failing condition depends on data values", "anchors": ["pycomlink/processing/k_R_relation.py::calc_R_from_A"]}
{"id": "C24", "title": "min/max rain rate is the plain rain rate divided by ln k + gamma", "statement": "For a, b given, calc_R_from_A_min_max(A, L, k) before the R_min cut equals calc_R_from_A(A, L) / (ln k + 0.57721566); NaN stays NaN; results are 0 or >= R_min.", "quantifier": "every attenuation, a, b, L > 0 and every k with ln k + gamma > 0", "why_tests_cant": "algebraic law over reals", "anchors": ["pycomlink/processing/k_R_relation.py::calc_R_from_A_min_max"]}
{"id": "C25", "title": "a_b validates its input and uses the right polarization rows", "statement": "a_b raises ValueError unless frequency and polarization have the same shape, all frequencies are within [1, 100] GHz, all polarization strings are among the eight accepted spellings and the approximation type is ITU_2003 or ITU_2005; otherwise each entry gets the interpolated (k, alpha) of the rows of its own polarization and table, and at tabulated frequencies exactly the tabulated values.", "quantifier": "every list of frequencies and polarization strings, both tables, every tabulated frequency", "why_tests_cant": "all mixed-polarization inputs", "anchors": ["pycomlink/processing/k_R_relation.py::a_b", "pycomlink/processing/k_R_relation.py::ITU_table_2005", "pycomlink/processing/k_R_relation.py::ITU_table_2003"]}
{"id": "C26", "title": "ITU tables are well formed", "statement": "Both ITU tables have five rows of equal length, strictly increasing frequencies from 1 to 100 GHz, and strictly positive k and alpha; so power laws built from tabulated frequencies satisfy the hypotheses a > 0, b > 0.", "quantifier": "every column of both tables", "why_tests_cant": "finite table checked entirely, used as a lemma in unbounded theorems", "anchors": ["pycomlink/processing/k_R_relation.py::ITU_table_2005", "pycomlink/processing/k_R_relation.py::ITU_table_2003"]}
{"id": "C27", "title": "Min/max attenuation: zero level and non-negativity", "statement": "_calc_A_min_max gives NaN for the first `window` steps and afterwards max(0, Ac_max[i] - min(Ac_min[i-window..i])), which is never negative; missing min/max values are first replaced by the rounded mean of the available ones.", "quantifier": "every four series of equal length, every window", "why_tests_cant": "sliding window over unbounded series with NaNs anywhere", "anchors": ["pycomlink/processing/min_max.py::_calc_A_min_max"]}
{"id": "C28", "title": "The xarray wrapper binds arguments like Python does", "statement": "For every call that Python itself would accept, the argument dictionary built by the wrapper is the Python binding in signature order (positional, then keyword, then default). For calls Python would reject, the wrapper path silently drops unknown keywords and surplus positionals, and lets a positional win over a duplicate keyword.", "quantifier": "every signature and every argument list", "why_tests_cant": "ranges over all signatures and call shapes", "anchors": ["pycomlink/processing/xarray_wrapper.py::_get_new_args_dict", "pycomlink/processing/xarray_wrapper.py::xarray_apply_along_time_dim"]}
{"id": "C29", "title": "The xarray wrapper works slice by slice along time", "statement": "If some argument has a time dimension, the wrapped function's result at each combination of the other coordinates is the undecorated function applied to the time slices at that combination; if none has, the function is called unchanged. Results at one coordinate never depend on data at another. A function returning two series (get_blackout_start_and_end) raises on such input.", "quantifier": "every number of non-time dimensions, every coordinate combination, every function", "why_tests_cant": "non-interference between slices for all data", "anchors": ["pycomlink/processing/xarray_wrapper.py::xarray_apply_along_time_dim", "pycomlink/processing/blackout_gap_detection.py::get_blackout_start_and_end"]}
{"id": "C30", "title": "Haversine distance is a metric bounded by half the circumference", "statement": "haversine is non-negative, symmetric, zero for identical points, at most pi*6367 km, invariant under 360 degree longitude shifts, and satisfies the triangle inequality.", "quantifier": "all points in real coordinates", "why_tests_cant": "triangle inequality over all triples of points", "anchors": ["pycomlink/spatial/helper.py::haversine"]}
{"id": "C31", "title": "CML distance matrix", "statement": "calc_distance_between_cml_endpoints returns four n x n matrices with zero on the diagonal of each, non-negative entries, a_to_all_a and b_to_all_b symmetric and a_to_all_b the transpose of b_to_all_a; hence every CML is always its own neighbour for every positive radius, even if it is longer than the radius.", "quantifier": "every list of distinct CML ids and end points", "why_tests_cant": "all network sizes and geometries", "anchors": ["pycomlink/processing/wet_dry/nearby_wetdry.py::calc_distance_between_cml_endpoints"]}
{"id": "C32", "title": "Rolling maximum makes deltaP non-positive", "statement": "In nearby_wetdry the difference between pmin and its rolling maximum is never positive and is zero when the current value is the maximum; it is NaN if fewer than the required number of values are available; it only depends on the values of the window (the last `period` steps).", "quantifier": "every pmin series with NaNs anywhere, every window and minimum count", "why_tests_cant": "sliding window over unbounded series", "anchors": ["pycomlink/processing/wet_dry/nearby_wetdry.py::nearby_wetdry"]}
{"id": "C33", "title": "Nearby wet/dry rule", "statement": "With levels of a float type (for integers see C160): a link with at most min_links links (including itself) within radius gets NaN for all steps. Otherwise at each step: NaN if at most min_links of the links have data; else wet if both medians are below their thresholds; else dry unless smeared (see next).", "quantifier": "every network, series length, thresholds, min_links, radius", "why_tests_cant": "all networks and data", "anchors": ["pycomlink/processing/wet_dry/nearby_wetdry.py::nearby_wetdry"]}
{"id": "C34", "title": "Wet smearing around strong events, and what happens at the series ends", "statement": "After the rule, a step not NaN is set wet exactly if the rule said wet, or a step that is wet with deltaP < -2 lies one before or one or two after it, or it is the first step or one of the last two steps of the series. (The last part follows from NaN-filled shifts being truthy; the documentation does not mention it.)", "quantifier": "every series length and classification", "why_tests_cant": "boundary behaviour for all lengths", "anchors": ["pycomlink/processing/wet_dry/nearby_wetdry.py::nearby_wetdry"]}
{"id": "C35", "title": "Nearby classification ignores level offsets and link order", "statement": "Adding an individual constant to the finite pmin series of each link changes neither wet nor F; permuting the links consistently permutes the results; the result for a link depends only on links within radius.", "quantifier": "every network, offsets, permutation", "why_tests_cant": "relational properties over all networks", "anchors": ["pycomlink/processing/wet_dry/nearby_wetdry.py::nearby_wetdry"]}
{"id": "C36", "title": "Reference level is the median of recent dry levels", "statement": "nearby_determine_reference_level returns at each step the median of (pmin+pmax)/2 over those of the last n_average_dry steps that are flagged dry and have data, NaN if fewer than min_periods are; values at wet or NaN-flagged steps never influence it; it lies between the smallest and largest contributing level.", "quantifier": "every series, flags with NaN, window and min_periods", "why_tests_cant": "all series and all values at wet steps", "anchors": ["pycomlink/processing/nearby_rain_retrival.py::nearby_determine_reference_level"]}
{"id": "C37", "title": "Signal correction never raises levels above the reference", "statement": "nearby_correct_received_signals returns p_c_min <= pref and p_c_max <= pref wherever pref is a number; steps not flagged wet (or with NaN pmin or NaN flag) give exactly pref for both; where pmin <= pmax, p_c_min <= p_c_max; it is idempotent.", "quantifier": "every series with NaNs anywhere", "why_tests_cant": "all NaN combinations", "anchors": ["pycomlink/processing/nearby_rain_retrival.py::nearby_correct_received_signals"]}
{"id": "C38", "title": "Nearby rain rate is a bounded mixture", "statement": "nearby_rainfall_retrival is non-negative, lies between the rates from the minimum and maximum attenuation for alpha in [0,1], is 0 when both attenuations do not exceed waa_max, is NaN where F <= threshold, and is unaffected by NaN F; without a threshold F is ignored, with one it needs one value per rate (IndexError otherwise).", "quantifier": "every series, a, b, length > 0, alpha in [0,1]", "why_tests_cant": "inequalities over reals and NaNs", "anchors": ["pycomlink/processing/nearby_rain_retrival.py::nearby_rainfall_retrival"]}
{"id": "C39", "title": "No rain where not wet (nearby pipeline)", "statement": "Chaining correction and retrieval with waa_max >= 0, each step not flagged wet and with a numeric reference level gets rain rate exactly 0 or NaN (outlier filter), and steps without reference level get NaN.", "quantifier": "every series and parameters", "why_tests_cant": "composition over all inputs", "anchors": ["pycomlink/processing/nearby_rain_retrival.py::nearby_correct_received_signals", "pycomlink/processing/nearby_rain_retrival.py::nearby_rainfall_retrival"]}
{"id": "C40", "title": "Wet/dry counts partition the pairs", "statement": "calc_wet_dry_performance_metrics: N_true_wet + N_missed_wet = N_wet_reference, N_true_dry + N_false_wet = N_dry_reference, and these plus N_nan_pairs sum to N_all_pairs; N_nan_pairs lies between max and sum of the two NaN counts; each count is the number of pairs with that property.", "quantifier": "every two series of equal length with NaNs anywhere", "why_tests_cant": "counting identity for all lengths", "anchors": ["pycomlink/validation/stats.py::calc_wet_dry_performance_metrics"]}
{"id": "C41", "title": "Wet/dry rates", "statement": "true_wet_rate (missed_wet_rate) is the fraction of pairs with wet reference whose prediction is wet (dry); their sum is 1 and each lies in [0,1] if the reference has a wet pair, both are NaN otherwise; likewise for dry.", "quantifier": "every two series of equal length", "why_tests_cant": "all lengths and NaN placements", "anchors": ["pycomlink/validation/stats.py::calc_wet_dry_performance_metrics"]}
{"id": "C42", "title": "Matthews correlation", "statement": "The reported MCC is in [-1,1] or NaN; it is 0 if nothing is predicted wet; it is NaN exactly if something is predicted wet but reference or prediction take only one value on the valid pairs; it is 1 exactly for perfect agreement with both classes present; it is symmetric in swapping reference and prediction when both contain a wet pair.", "quantifier": "every two series of equal length", "why_tests_cant": "Cauchy-Schwarz style bound for all counts", "anchors": ["pycomlink/validation/stats.py::calc_wet_dry_performance_metrics"]}
{"id": "C43", "title": "Metrics depend only on the multiset of valid pairs", "statement": "Permuting the pairs jointly leaves all wet/dry and rain metrics unchanged; appending pairs with a NaN changes only the NaN/total counts.", "quantifier": "every series and permutation", "why_tests_cant": "order independence over all permutations", "anchors": ["pycomlink/validation/stats.py::calc_wet_dry_performance_metrics", "pycomlink/validation/stats.py::calc_rain_error_performance_metrics"]}
{"id": "C44", "title": "Rain error inequalities", "statement": "calc_rain_error_performance_metrics: RMSE >= MAE >= |R_mean_predicted - R_mean_reference| and RMSE^2 = bias^2 + (CV*mean)^2; Pearson correlation within [-1,1]; RMSE = 0 exactly if all valid pairs agree; sums = count * means; the counts of all and NaN pairs are those of the inputs, inputs of different length raise.", "quantifier": "every two finite series with at least one valid pair", "why_tests_cant": "inequalities over all real vectors", "anchors": ["pycomlink/validation/stats.py::calc_rain_error_performance_metrics"]}
{"id": "C45", "title": "Rain threshold is strict", "statement": "A value equal to rainfall_threshold_wet counts as dry (the docstring says value >= threshold is wet). false/missed wet rates lie in [0,1] or are NaN when the class is empty; false_wet_precipitation_rate exceeds the threshold, missed likewise, and both are NaN exactly if there is no such pair.", "quantifier": "every two series and threshold", "why_tests_cant": "all values including ties", "anchors": ["pycomlink/validation/stats.py::calc_rain_error_performance_metrics"]}
{"id": "C46", "title": "IDW interpolation is a convex combination", "statement": "Each interpolated value lies between the smallest and largest value of the neighbours used; it equals the data value when the nearest neighbour is closer than 1e-10; it is NaN exactly if there is no neighbour within max_distance (for finite data); constant data give that constant; multiplying all distances by a common factor does not change it (if no distance is below 1e-10 and none occurs twice). A query with a single point gives a number, the one an array of query points gets at that point.", "quantifier": "every point set, query set, nnear > 1, real power p", "why_tests_cant": "all geometries", "anchors": ["pycomlink/spatial/idw.py::Invdisttree", "pycomlink/spatial/idw.py::_numba_idw_loop"]}
{"id": "C47", "title": "IDW neighbour cache is transparent only for fixed max_distance", "statement": "For every sequence of calls on one Invdisttree object that all use the same max_distance, each call returns what a fresh object would return. If max_distance changes while query points, nnear and eps stay the same, the old neighbourhood is silently reused.", "quantifier": "every call history of any length", "why_tests_cant": "history dependence over all call sequences", "anchors": ["pycomlink/spatial/idw.py::Invdisttree.__call__"]}
{"id": "C48", "title": "Interpolator object is history independent", "statement": "For every sequence of calls on one IdwKdtreeInterpolator (changing points, values, NaN patterns and grids), each call returns what a fresh interpolator would return; all-NaN input gives an all-NaN grid (grids of floats; for integers see C159); the output has the shape of the grid; NaN points are ignored.", "quantifier": "every call history of any length", "why_tests_cant": "history independence over all call sequences", "anchors": ["pycomlink/spatial/interpolator.py::IdwKdtreeInterpolator", "pycomlink/spatial/interpolator.py::PointsToGridInterpolator.__call__", "pycomlink/spatial/idw.py::Invdisttree"]}
{"id": "C49", "title": "Generated grid covers all points", "statement": "If xgrid or ygrid is None, the generated grid has spacing `resolution`, starts one resolution below the smallest coordinate and reaches at least the largest and less than one resolution beyond; every data point lies within the grid's bounding box; without resolution it raises ValueError; if both grids are given they are used unchanged. Calling either interpolator without grids is the same as calling it with the generated grids.", "quantifier": "every non-empty point list and resolution > 0", "why_tests_cant": "ceil arithmetic over all reals", "anchors": ["pycomlink/spatial/interpolator.py::_parse_grid_kwargs"]}
{"id": "C50", "title": "Climatological variogram parameters are valid", "statement": "clim_var_param returns nugget = 0.1*sill, and for every day of year and every time scale from 1 minute to 48 hours sill and range are strictly positive.", "quantifier": "every day number and time scale in range", "why_tests_cant": "two-parameter transcendental inequality", "anchors": ["pycomlink/spatial/interpolator.py::clim_var_param"]}
{"id": "C51", "title": "pytorch sliding windows and their target times", "statement": "rolling_window yields one window for each start 0..n-w in order; for int(reflength/2) = h with 1 <= h <= w the k-th window is attributed to time index k+w-h and no two windows share a target; for h = 0 it raises (index out of range) whenever there is a window.", "quantifier": "every series length, window size, reflength", "why_tests_cant": "index arithmetic for all sizes", "anchors": ["pycomlink/processing/pytorch_utils/run_inference.py::rolling_window", "pycomlink/processing/pytorch_utils/run_inference.py::batchify_windows"]}
{"id": "C52", "title": "pytorch predictions end up at the right place", "statement": "For distinct ids and times, cnn_wd stores at (time t, cml c) the model output for the window [t+h-w, t+h) of cml c when that window lies in the series, and NaN elsewhere, independent of batch size. Whatever the model, it is given the windows link by link in order of time, in batches of batch_size (the last may be shorter).", "quantifier": "every dataset size, batch size >= 1, row-wise model", "why_tests_cant": "end-to-end index bookkeeping for all sizes", "anchors": ["pycomlink/processing/pytorch_utils/run_inference.py::run_inference", "pycomlink/processing/pytorch_utils/run_inference.py::redistribute_results", "pycomlink/processing/pytorch_utils/pytorch_utils.py::build_dataloader"]}
{"id": "C53", "title": "tensorflow samples and stored predictions line up", "statement": "create_samples returns exactly the all-finite windows of length seq_len of known CMLs, in order, with the index of their last step; store_predictions puts each probability at its (time, id) and NaN elsewhere, drops time indices behind the end, takes negative ones as counted from the end (down to minus the number of steps, below that it raises IndexError); length mismatch raises; together, the stored value at (t, c) is the prediction for the window ending at t, scaled by mean and standard deviation of each variable over all complete windows of all links, and NaN if that window is incomplete or contains a non-finite value.", "quantifier": "every dataset, seq_len >= 1", "why_tests_cant": "end-to-end index bookkeeping for all sizes", "anchors": ["pycomlink/processing/tensorflow_utils/inference_utils.py::create_samples", "pycomlink/processing/tensorflow_utils/inference_utils.py::store_predictions"]}
{"id": "C54", "title": "tensorflow feature scaling", "statement": "scale_features makes each feature have mean 0 and, unless constant, variance 1 over all samples; it is invariant under positive affine changes of a feature; a constant feature becomes 0. Scaling is global: one CML's scaled input depends on the other CMLs in the call.", "quantifier": "every sample array", "why_tests_cant": "algebraic law over all data", "anchors": ["pycomlink/processing/tensorflow_utils/inference_utils.py::scale_features"]}
{"id": "C55", "title": "MLP windows and causality", "statement": "mlp_wet_dry returns one row per time step; with the online models row i is NaN for i < 40 and otherwise the classifier output for the 40 differences ending at step i of both channels, or NaN if one of the samples i-40..i is NaN, hence never depends on later samples; with the offline models, which need at least 361 samples, row i uses detrended samples i-20..i+19.", "quantifier": "every series length >= 41, NaN placement, row-wise classifier", "why_tests_cant": "index arithmetic and causality for all lengths", "anchors": ["pycomlink/processing/wet_dry/mlp.py::mlp_wet_dry"]}
{"id": "C56", "title": "STFT classification: length, padding, scale invariance", "statement": "stft_classification (non-mirror, spectrogram supplied or computed) returns a flag for each sample, False in the padding at both ends, and unchanged when the spectrogram is multiplied by a positive constant; raising the threshold never adds wet steps; invalid dry-period argument combinations raise (AttributeError when the supplied spectrogram fits the series); a supplied spectrogram without rows raises IndexError, one with more columns than samples ValueError, and a frequency for which it has no row IndexError; mirror=True always raises: the exception of the spectrogram with the next even window length if there is one, else TypeError (NameError with a supplied spectrogram).", "quantifier": "every spectrogram and parameters", "why_tests_cant": "all shapes and data", "anchors": ["pycomlink/processing/wet_dry/stft.py::stft_classification"]}
{"id": "C57", "title": "Lowest-variance period", "statement": "find_lowest_std_dev_period returns (stop - window_length, stop) where stop is the first index whose trailing window has the smallest standard deviation; the returned half-open range is shifted one step before that window, and is empty as a slice when the first window is the best.", "quantifier": "every series and window length", "why_tests_cant": "argmin over all series", "anchors": ["pycomlink/processing/wet_dry/stft.py::find_lowest_std_dev_period"]}
{"id": "C58", "title": "pytorch model cache", "statement": "After any sequence of successful calls, download_and_cache_model returns a file holding what the URL served at the last download, downloads at most once per URL unless forced, and never lets different URLs share a file (unless their hashes collide). If a download is interrupted after creating the file, the next unforced call returns the truncated file. list_cached_models never lists a cached model.", "quantifier": "every call history, every interruption point", "why_tests_cant": "crash points and histories", "anchors": ["pycomlink/processing/pytorch_utils/inference_utils.py::download_and_cache_model", "pycomlink/processing/pytorch_utils/inference_utils.py::list_cached_models", "pycomlink/processing/pytorch_utils/inference_utils.py::clear_model_cache"]}
{"id": "C59", "title": "tensorflow model cache keys on the file name only", "statement": "download_and_cache returns the cached file whenever a file with the same last URL component exists, so two URLs with equal last component share one cache entry; URLs with different last components never interfere. URLs that end in a slash or in a part of one or two dots name a directory: nothing is downloaded, or OSError is raised if the download is forced.", "quantifier": "every call history", "why_tests_cant": "histories over all URL sequences", "anchors": ["pycomlink/processing/tensorflow_utils/inference_utils.py::download_and_cache", "pycomlink/processing/tensorflow_utils/inference_utils.py::resolve_model_paths"]}
{"id": "C60", "title": "Model source dispatch", "statement": "get_model treats strings starting with http:// or https:// as URLs, else strings ending in .pt or containing / as paths, and raises on all others; resolve_model_paths downloads exactly for URLs.", "quantifier": "every string", "why_tests_cant": "all strings", "anchors": ["pycomlink/processing/pytorch_utils/inference_utils.py::get_model", "pycomlink/processing/tensorflow_utils/inference_utils.py::is_url", "pycomlink/processing/tensorflow_utils/inference_utils.py::resolve_model_paths"]}
{"id": "C61", "title": "Aggregation onto a new time index", "statement": "aggregate_df_onto_DatetimeIndex assigns each sample within the common period to the next (label right) or previous (label left) new time stamp within that period, drops samples without one, groups are in increasing time order, every group is non-empty, and sum-aggregation conserves the total of assigned samples; other labels raise.", "quantifier": "every sorted sample index and new index", "why_tests_cant": "conservation over all index pairs", "anchors": ["pycomlink/util/temporal.py::aggregate_df_onto_DatetimeIndex"]}
{"id": "C62", "title": "Bounding-box weighting is exact", "statement": "GridValidator.get_time_series sums value*weight over the bounding box of positive weights; for non-negative weights this equals the sum over the whole grid at each time strictly between start and end; without any positive weight it raises.", "quantifier": "every grid, weights and values", "why_tests_cant": "all grids", "anchors": ["pycomlink/validation/validator.py::GridValidator.get_time_series"]}
{"id": "C63", "title": "Coverage mask", "statement": "calc_coverage_mask has the shape of the grid, is the union over CMLs of single-CML masks, grows when CMLs are added, and does not depend on CML order.", "quantifier": "every CML list and grid", "why_tests_cant": "set-algebraic law over all lists", "anchors": ["pycomlink/spatial/coverage.py::calc_coverage_mask"]}
{"id": "C64", "title": "cmlh5 reader structure", "statement": "read_cmlh5_file_to_xarray returns one dataset per CML group in file key order, each holding every channel's tsl and rsl values at their own time stamps (NaN at times only other channels have; unchanged arrays if all channels share the time axis) with frequency in GHz, site coordinates of its own CML and length = haversine of its end points; an empty file raises IndexError, a missing dataset or attribute of the first channel KeyError.", "quantifier": "every file content", "why_tests_cant": "all file structures", "anchors": ["pycomlink/io/cmlh5_to_xarray.py::read_cmlh5_file_to_xarray"]}
{"id": "C65", "title": "One polarization string for several frequencies is rejected by calc_R_from_A", "statement": "calc_R_from_A with a polarization string and two or more frequencies always raises ValueError (np.atleast_1d makes the string an array of length one), although its documentation says a string is expanded to the shape of f_GHz; a_b alone accepts the same frequencies and string.", "quantifier": "every frequency array of length >= 2, every string, every attenuation series", "why_tests_cant": "all array lengths and strings", "anchors": ["pycomlink/processing/k_R_relation.py::calc_R_from_A", "pycomlink/processing/k_R_relation.py::a_b"]}
{"id": "C66", "title": "Leijnse WAA from observed attenuation inverts the look-up table", "statement": "If the tabulated WAA values are numbers and A_rain + WAA increases, waa_leijnse_2008_from_A_obs is one function g of each observed value alone: g(0)=0, exact at the table nodes, 0 <= A_obs - g <= 1000 and non-decreasing, g within the tabulated range, NaN stays NaN; negative values and values beyond the table raise ValueError.", "quantifier": "every A_obs series, frequency, temperature, film and antenna parameters with an increasing table", "why_tests_cant": "statement over all series and parameters", "anchors": ["pycomlink/processing/wet_antenna.py::waa_leijnse_2008_from_A_obs"]}
{"id": "C67", "title": "Outlier measure F of the nearby approach", "statement": "For a link with more than min_links links within radius, F at a step is the sum over the last 4*timeperiod steps of (own specific deltaP minus neighbourhood median) * interval/60; it is NaN if fewer steps exist or any of these deviations is NaN. (The window is 4 steps per hour whatever the interval, so it covers timeperiod hours only for 15 minute data.)", "quantifier": "every network, series and parameters", "why_tests_cant": "sliding sum over unbounded series and networks", "anchors": ["pycomlink/processing/wet_dry/nearby_wetdry.py::nearby_wetdry"]}
{"id": "C68", "title": "Nearby distances are matched by position, not by label", "statement": "nearby_wetdry matches the columns of the distance dataset to links by position: two datasets with the same labelled distances in different column order are both accepted and can give different classifications. (Negative result, with a witness.)", "quantifier": "existence of a network and two orderings", "why_tests_cant": "a hidden precondition that no test of the happy path shows", "anchors": ["pycomlink/processing/wet_dry/nearby_wetdry.py::nearby_wetdry"]}
{"id": "C69", "title": "Invdisttree keeps query arrays by reference", "statement": "If the caller passes a float array as query points, overwrites it in place and calls the tree again with the same array (same nnear and eps), the neighbours of the old contents are used whatever the new contents are. (Negative result.)", "quantifier": "every tree, query, new contents and values", "why_tests_cant": "needs two calls with a mutation in between; all contents", "anchors": ["pycomlink/spatial/idw.py::Invdisttree.__call__"]}
{"id": "C70", "title": "IdwKdtreeInterpolator without NaN exclusion keeps coordinates by reference", "statement": "With exclude_nan=False, after a call with coordinate arrays x, y the caller may overwrite these arrays with other coordinates and call again: the result is the interpolation from the old coordinates. (Negative result; with exclude_nan=True copies are kept and C48 holds.)", "quantifier": "every interpolator configuration, coordinates, values and grids", "why_tests_cant": "needs a mutation between calls; all contents", "anchors": ["pycomlink/spatial/interpolator.py::IdwKdtreeInterpolator._interpol_func"]}
{"id": "C71", "title": "Multi-output networks silently give NaN in cnn_wd", "statement": "If the loaded pytorch network returns two or more numbers per window (or none), cnn_wd does not raise: the failed stores are swallowed by `except (IndexError, ValueError)` and every prediction is NaN. (Negative result.)", "quantifier": "every dataset, window size, batch size and such network", "why_tests_cant": "needs a network of another output shape; holds for all data", "anchors": ["pycomlink/processing/pytorch_utils/run_inference.py::redistribute_results"]}
{"id": "C72", "title": "id_coord of wet_dry_1d_cnn is not used for selection", "statement": "wet_dry_1d_cnn accepts id_coord and checks that it exists, but create_samples always selects with cml_id=: for a dataset whose link dimension has another name every call raises IndexError, whatever id_coord, ids and data. (Negative result.) Likewise an input variable that is not in the dataset is not reported: the KeyError is caught for every link and the call ends with IndexError in the scaling. Without input variables the call raises ValueError as soon as one of the requested links exists.", "quantifier": "every such dataset, id_coord and ids", "why_tests_cant": "documented parameter that can never work; all data", "anchors": ["pycomlink/processing/tensorflow_utils/run_inference.py::wet_dry_1d_cnn", "pycomlink/processing/tensorflow_utils/inference_utils.py::create_samples"]}
{"id": "C73", "title": "Resampling to the grid time does not crop", "statement": "GridValidator.resample_to_grid_time_series assigns every sample to the next (right) or previous (left) grid stamp at any distance, so unlike the aggregation of C61 the first (last) grid stamp collects all samples before the first (after the last) one; groups are in time order and non-empty; other labels raise.", "quantifier": "every sample index and strictly increasing grid index", "why_tests_cant": "edge groups over all index pairs", "anchors": ["pycomlink/validation/validator.py::GridValidator.resample_to_grid_time_series"]}
{"id": "C74", "title": "Wet error rates", "statement": "calc_wet_error_rates returns (false wet / dry steps, missed wet / wet steps), each in [0,1], NaN without such steps, ignoring NaN flags; calc_wet_dry_error returns the same numbers in opposite order.", "quantifier": "all flag series", "why_tests_cant": "all series incl. NaN flags", "anchors": ["pycomlink/validation/stats.py::calc_wet_error_rates", "pycomlink/validation/validator.py::calc_wet_dry_error"]}
{"id": "C75", "title": "Leijnse WAA is the transmission loss of a water film", "statement": "waa_leijnse_2008 equals 10 log10(|t_dry|^2/|t_wet|^2), where t_dry and t_wet are the transmitted amplitudes of a plane wave through the antenna cover alone and through water film and cover, i.e. the unique solutions of the continuity conditions of the electric and magnetic field at every boundary; both are non-zero and at most 1 in norm, so the result is finite.", "quantifier": "every f >= 0, temperature 205..339 K, gamma >= 0, delta > 0, cover thickness >= 0 and refractive index of the cover with Im(n^2) >= 0, rain rate >= 0", "why_tests_cant": "relates a closed formula to a boundary value problem over all parameters", "anchors": ["pycomlink/processing/wet_antenna.py::waa_leijnse_2008"]}
{"id": "C76", "title": "Standard processing chain: values", "statement": "For the chain baseline_constant -> waa_schleiss_2013 -> calc_R_from_A on trsl - baseline - waa with a, b, L, tau > 0 and waa_max, delta_t >= 0: every rain rate is a non-negative number, every step that is not wet (and every one of the first n_average_last_dry steps) gets exactly 0, and where the signal never falls below the baseline the rate is at most the rate without WAA correction.", "quantifier": "every finite signal, flag series and parameters", "why_tests_cant": "a composition of two recursions and a power law over unbounded series", "anchors": ["pycomlink/processing/baseline.py::baseline_constant", "pycomlink/processing/wet_antenna.py::waa_schleiss_2013", "pycomlink/processing/k_R_relation.py::calc_R_from_A"]}
{"id": "C77", "title": "Standard processing chain: level offset and causality", "statement": "The rain rates of that chain do not change if a constant is added to the signal (finite levels), and the rates of the first m steps depend only on signal and flags of the first m steps (NaNs allowed), so extending a series never changes rain rates computed before.", "quantifier": "every signal, flag series, offset, m and parameters", "why_tests_cant": "relates two runs on unbounded series", "anchors": ["pycomlink/processing/baseline.py::baseline_constant", "pycomlink/processing/wet_antenna.py::waa_schleiss_2013", "pycomlink/processing/k_R_relation.py::calc_R_from_A"]}
{"id": "C78", "title": "Schleiss WAA can be negative and raise the rain rate", "statement": "If the signal falls below the baseline during a wet period, waa_schleiss_2013 returns a negative WAA there and the recursion keeps it below zero afterwards, so that the corrected attenuation of a later step exceeds the observed attenuation and the rain rate exceeds the one without correction. (Negative result, with a witness; excluded by C13 when the signal stays above the baseline.)", "quantifier": "existence of a signal, and the first such step in general", "why_tests_cant": "needs a signal below the baseline within a wet period", "anchors": ["pycomlink/processing/wet_antenna.py::waa_schleiss_2013"]}
{"id": "C79", "title": "Nearby pipeline ignores level offsets", "statement": "Adding an individual constant to pmin and pmax of every link (finite or missing values) changes neither the wet flags nor F nor the rain rates of the chain nearby_wetdry -> nearby_determine_reference_level -> nearby_correct_received_signals -> nearby_rainfall_retrival; the reference level shifts by exactly the constant.", "quantifier": "every network, offsets, parameters", "why_tests_cant": "relates two runs of four functions over all networks", "anchors": ["pycomlink/processing/wet_dry/nearby_wetdry.py::nearby_wetdry", "pycomlink/processing/nearby_rain_retrival.py::nearby_determine_reference_level", "pycomlink/processing/nearby_rain_retrival.py::nearby_correct_received_signals", "pycomlink/processing/nearby_rain_retrival.py::nearby_rainfall_retrival"]}
{"id": "C80", "title": "Schleiss WAA in rounded arithmetic", "statement": "In floating point arithmetic with any monotone rounding (any rounding mode, with overflow and gradual underflow), if waa_max >= 0, delta_t >= 0, tau > 0 and no attenuation rsl-baseline is negative: every WAA is a number between 0 and min(rsl-baseline, waa_max), the corrected attenuation is never negative (it is NaN for inf - inf), and at a wet step with rsl-baseline >= waa_max the WAA is not below the previous one.", "quantifier": "every rounding, series and parameters", "why_tests_cant": "rounding errors of all series and parameters", "anchors": ["pycomlink/processing/wet_antenna.py::waa_schleiss_2013"]}
{"id": "C81", "title": "Linear baseline in rounded arithmetic", "statement": "In floating point arithmetic with any monotone rounding, inside a closed wet event without NaN flags between dry levels u <= v every baseline value that is a number is >= u and the values never decrease inside the event (mirrored for u >= v). With relative precision eps the values also stay <= v as long as the event is short compared with 1/eps; for IEEE doubles this covers every event of up to 2^50 steps between levels that differ by 2^-900 to 2^1000.", "quantifier": "every rounding, signal and flags", "why_tests_cant": "rounding errors of all series", "anchors": ["pycomlink/processing/baseline.py::baseline_linear"]}
{"id": "C82", "title": "Constant baseline in rounded arithmetic", "statement": "In floating point arithmetic of relative precision eps and underflow error eta the baseline during a wet event deviates from the exact mean of the n baseline values before the event by at most ((1+eps)^n - 1) * (mean of their absolute values) + eta; for n = 1 it is the last dry value without any error.", "quantifier": "every rounding of that precision, signal, flags and n, without overflow", "why_tests_cant": "rounding error analysis over all series", "anchors": ["pycomlink/processing/baseline.py::baseline_constant"]}
{"id": "C83", "title": "A constant signal can have non-zero attenuation", "statement": "In IEEE binary64 arithmetic, for the constant signal 0.1 and n_average_last_dry = 3 the baseline during a wet event is greater than the signal, so the attenuation is negative; C03's range holds only up to rounding. (Negative result, with a witness.)", "quantifier": "existence of a signal", "why_tests_cant": "tests compare with tolerance", "anchors": ["pycomlink/processing/baseline.py::baseline_constant"]}
{"id": "C84", "title": "Kriging interpolator: points used, shape and history", "statement": "Whatever calls were made before (including failed ones), OrdinaryKrigingInterpolator returns PyKrige's estimates at the grid cells, in the grid's shape, for exactly the points with a number as value (exclude_nan): inserting points with NaN value anywhere changes nothing. All-NaN data give an all-NaN grid (of floats; for integers see C159) without PyKrige being called, lists of unequal length an AssertionError, and PyKrige's exceptions pass through.", "quantifier": "every sequence of calls, data, grids and kriging backend", "why_tests_cant": "all call histories and NaN patterns", "anchors": ["pycomlink/spatial/interpolator.py::OrdinaryKrigingInterpolator", "pycomlink/spatial/interpolator.py::PointsToGridInterpolator"]}
{"id": "C85", "title": "Kriging interpolator: stale sigma and z", "statement": "The attributes sigma and z always belong to the last call that reached that line: after a call with only NaNs zgrid is NaN but sigma and z are those of an earlier map (AttributeError if there was none), and after a call in which PyKrige raised z is new while sigma and zgrid are old. (Negative result.)", "quantifier": "every history of calls", "why_tests_cant": "needs particular call sequences", "anchors": ["pycomlink/spatial/interpolator.py::OrdinaryKrigingInterpolator"]}
{"id": "C86", "title": "Kriging interpolator: shared default parameters", "statement": "All OrdinaryKrigingInterpolator objects created without variogram_parameters share one dictionary: changing an entry through one object changes the parameters of all others, including objects created later. An object created with a dictionary of its own is affected only by changes of that dictionary. (Negative result.)", "quantifier": "every sequence of constructions and changes", "why_tests_cant": "aliasing across objects", "anchors": ["pycomlink/spatial/interpolator.py::OrdinaryKrigingInterpolator"]}
{"id": "C87", "title": "Variogram parameters by calendar date", "statement": "clim_var_param(date, t) depends on the date only through the day of the year 1..366 of the Gregorian calendar; 31 December of a leap year gets the parameters of 1 January, and from 1 March on a leap year's date gets the parameters which a common year's following day has. Dates up to 28 February get the same parameters in all years.", "quantifier": "every date and time scale", "why_tests_cant": "all dates of leap and common years", "anchors": ["pycomlink/spatial/interpolator.py::clim_var_param"]}
{"id": "C88", "title": "Validator.calc_stats changes its argument", "statement": "A successful Validator.calc_stats(cml, ts) leaves the caller's cml with a text index in place of its time stamps (its values stay), so that every later call with that cml raises AttributeError; cmls not passed to it are unaffected. (Negative result.)", "quantifier": "every cml, time series and sequence of calls", "why_tests_cant": "tests call it once per object", "anchors": ["pycomlink/validation/validator.py::Validator.calc_stats"]}
{"id": "C89", "title": "Grid of pixel corners in plot_intersections", "statement": "If neighbouring pixels share their corners, then the (rows+1) x (cols+1) corner arrays drawn by plot_intersections give each pixel (i,j) exactly its own lower left, lower right, upper left and upper right corner at (i,j), (i,j+1), (i+1,j), (i+1,j+1). If they do not, the arrays still have that shape and the lower left corners are right.", "quantifier": "every grid size >= 1x1 and corner grids", "why_tests_cant": "all grid sizes", "anchors": ["pycomlink/validation/validator.py::GridValidator.plot_intersections"]}
{"id": "C90", "title": "TensorFlow is installed only on request", "statement": "In every sequence of get_tf calls and in every environment: pip is run at most when import fails and auto_install is set or ALLOW_TF_AUTOINSTALL is exactly '1' at that call, with package tensorflow[and-cuda] iff nvidia-smi works; otherwise ImportError. When permitted, pip is run once and the object imported afterwards is returned; failures of pip or of an import are raised; an importable TensorFlow is returned without pip. Once TensorFlow was imported, every later call returns that object, without import or pip. A device query that fails raises once; the next call then succeeds without it.", "quantifier": "every sequence of calls and environment changes", "why_tests_cant": "environment dependent", "anchors": ["pycomlink/processing/tensorflow_utils/lazy_tf.py::get_tf", "pycomlink/processing/tensorflow_utils/lazy_tf.py::ensure_tensorflow_installed"]}
{"id": "C91", "title": "The deprecated decorator is transparent", "statement": "A function wrapped by deprecated returns or raises exactly what the function does for the same arguments. Each call gives one warning naming the function (also repeatedly from the same line, under the actions default, module and always), none under ignore, at most one altogether under once; under the action error the warning is raised and the function is not run.", "quantifier": "every function, arguments, filter and sequence of calls", "why_tests_cant": "all filter settings and call sequences", "anchors": ["pycomlink/util/maintenance.py::deprecated"]}
{"id": "C92", "title": "Wet/dry error rates in floating point", "statement": "In IEEE doubles, for at most 2^53 usable pairs: each wet/dry rate (true/false wet/dry rate) of WetDryError is NaN iff its class is empty, otherwise it lies in [0,1], is exactly 0 iff no pair and exactly 1 iff every pair of the class is counted, and the floating-point sum of complementary rates is exactly 1.", "quantifier": "every prediction and reference with up to 2^53 usable pairs", "why_tests_cant": "rounding of all quotients of integers", "anchors": ["pycomlink/validation/stats.py::calc_wet_dry_performance_metrics"]}
{"id": "C93", "title": "Matthews correlation in floating point", "statement": "In IEEE doubles, for at most 2^26 usable pairs with both classes present in prediction and reference: mcc has a relative error of at most 2^-48 and the right sign, so |mcc| <= 1 + 2^-48. It may exceed 1: a perfect prediction with 3 wet and 1 dry steps gives 1 + 2^-52. (Partly negative result.)", "quantifier": "every prediction and reference with up to 2^26 usable pairs", "why_tests_cant": "rounding; tests compare with a tolerance", "anchors": ["pycomlink/validation/stats.py::calc_wet_dry_performance_metrics"]}
{"id": "C94", "title": "deltaP of the nearby approach in floating point", "statement": "Under every monotone rounding delta_P of nearby_wetdry is NaN or <= 0. In IEEE doubles (levels up to 2^1022) it is negative exactly where an earlier level in the window is greater than the current one: a drop however small is not lost.", "quantifier": "every series, window length and rounding", "why_tests_cant": "rounding; all levels", "anchors": ["pycomlink/processing/wet_dry/nearby_wetdry.py::nearby_wetdry"]}
{"id": "C95", "title": "Nearby reference level in floating point", "statement": "In IEEE doubles (levels up to 2^1022) nearby_determine_reference_level is NaN or within the range of pmin and pmax at the dry steps of the window. For a constant signal it is exactly the signal where enough steps are dry, both corrected levels are then exactly the signal and the attenuation is exactly 0.", "quantifier": "every series, flags, window length and min_periods", "why_tests_cant": "rounding; all levels", "anchors": ["pycomlink/processing/nearby_rain_retrival.py::nearby_determine_reference_level", "pycomlink/processing/nearby_rain_retrival.py::nearby_correct_received_signals"]}
{"id": "C96", "title": "STFT: spectrogram, missing samples, short series", "statement": "For a finite series of at least window_length samples the spectrogram returned by stft_classification has window_length//2 + 1 rows; row k belongs to the frequency k*f_sampling/window_length and holds, at time t, the one-sided power spectral density (squared modulus of the discrete Fourier transform of the window_length windowed samples around t). A sample is wet only if all these samples exist and none is NaN. In a series shorter than the window at most the middle sample is wet. Without window the Hamming window is used.", "quantifier": "every series, window, sampling frequency and dry period", "why_tests_cant": "spectra of all series", "anchors": ["pycomlink/processing/wet_dry/stft.py::stft_classification"]}
{"id": "C97", "title": "STFT: locality and time shift", "statement": "The flag of a sample is determined by the window_length samples around it and those in the windows around the dry period: any other series and time with the same samples there gets the same flag. So samples elsewhere have no influence and shifting the series shifts the flags.", "quantifier": "every pair of series, times and dry periods", "why_tests_cant": "relates two runs on arbitrary series", "anchors": ["pycomlink/processing/wet_dry/stft.py::stft_classification"]}
{"id": "C98", "title": "STFT: invariances", "statement": "stft_classification is unchanged when the signal is multiplied by any constant other than 0 (also a negative one). For an odd window length and a symmetric window, as the Hamming window, reversing the signal and the dry period reverses the flags. It is not unchanged under adding a constant to the signal. (Last part: negative result.)", "quantifier": "every series, factor and dry period", "why_tests_cant": "relates two runs on arbitrary series", "anchors": ["pycomlink/processing/wet_dry/stft.py::stft_classification"]}
{"id": "C99", "title": "STFT: steady signals are dry", "statement": "For a threshold >= 0 a sample is dry if the samples around it are the same as in each window of the dry period; so a constant signal is dry throughout.", "quantifier": "every series, window and dry period", "why_tests_cant": "all series", "anchors": ["pycomlink/processing/wet_dry/stft.py::stft_classification"]}
{"id": "C100", "title": "Kriging is linear in the data and reproduces constants", "statement": "Values a*z+b instead of z give the field a*Z+b instead of Z in every cell (or the same exception); equal values at all points give this value in every cell; the variances in sigma depend only on where there are numbers, not on which.", "quantifier": "every variogram, every configuration, all data points (NaNs included), every grid, all real a and b", "why_tests_cant": "an algebraic law over all data sets, grids and variograms", "anchors": ["pycomlink/spatial/interpolator.py::OrdinaryKrigingInterpolator"]}
{"id": "C101", "title": "Kriging is exact at the data points", "statement": "If a call succeeds, every grid cell located at a data point has the value of that point and variance zero, with and without n_closest_points and with NaNs elsewhere, as long as no second point lies within 1e-10.", "quantifier": "every variogram, every configuration with exclude_nan, all data points, grids and cells", "why_tests_cant": "needs the solution of a linear system of arbitrary size", "anchors": ["pycomlink/spatial/interpolator.py::OrdinaryKrigingInterpolator"]}
{"id": "C102", "title": "Kriging depends neither on the order of the points nor on the position of the coordinate system", "statement": "Without n_closest_points, reordering the data points changes neither field nor variances, and moving points and grid by a shift, rotation or reflection leaves the field as it is.", "quantifier": "all data sets and permutations, all distance-preserving maps, every variogram", "why_tests_cant": "ranges over all permutations and motions", "anchors": ["pycomlink/spatial/interpolator.py::OrdinaryKrigingInterpolator"]}
{"id": "C103", "title": "Kriging with the default variogram never fails from two values on", "statement": "With a spherical variogram with positive nugget and range and a sill not below the nugget (the defaults, and every result of clim_var_param for time scales from one second) the interpolator returns a complete field of numbers for all data with at least two values, also if points coincide. With exactly one value it raises ValueError. An n_closest_points below 2 raises ValueError, one above the number of values IndexError. A parameter dictionary without range, without nugget, or without both sill and psill raises KeyError as soon as one point has a value.", "quantifier": "all locations and values with NaNs anywhere, every grid, every admissible n_closest_points", "why_tests_cant": "that the matrix is regular for all locations rests on the positive definiteness of the spherical covariance in the plane", "anchors": ["pycomlink/spatial/interpolator.py::OrdinaryKrigingInterpolator", "pycomlink/spatial/interpolator.py::clim_var_param"]}
{"id": "C104", "title": "Kriging gives the best linear unbiased estimate and its variance", "statement": "With such a spherical variogram the field is a weighted mean of the data with weights of sum one that depend on the locations only; away from the data points no other weights of sum one have a smaller error variance, and sigma is this variance, which is not negative.", "quantifier": "all locations, values, grids, competing weights and admissible parameters", "why_tests_cant": "optimality compares with all other weights", "anchors": ["pycomlink/spatial/interpolator.py::OrdinaryKrigingInterpolator"]}
{"id": "C105", "title": "Kriging can produce negative rain", "statement": "With default arguments, rain rate R at one of three points and zero at the others, there is a cell in which the field is -(1517/173185) R.", "quantifier": "every R", "why_tests_cant": "a witness; the field is proportional to R for every R", "anchors": ["pycomlink/spatial/interpolator.py::OrdinaryKrigingInterpolator"]}
{"id": "C106", "title": "The ITU parameters between the tabulated frequencies are determined and positive", "statement": "Through four or more points there is exactly one cubic spline with not-a-knot ends, so the result of a_b does not depend on how the spline is computed. For every frequency a_b accepts, also between the tabulated ones, a is between 0.000025 and 1.37 and b between 0.67 and 1.71.", "quantifier": "every frequency from 1 to 100 GHz, both polarizations and tables; all tables for the uniqueness", "why_tests_cant": "a spline through positive values may become negative between them; tests check some frequencies", "anchors": ["pycomlink/processing/k_R_relation.py::a_b"]}
{"id": "C107", "title": "a increases and b decreases with the frequency", "statement": "For links of the same polarization a increases strictly with the frequency from 5 GHz on (2003: 2 GHz) and b decreases strictly from 6 GHz on (2003: 8 GHz). Below it is not so: a at 4 GHz is smaller than at 3 GHz (default table, horizontal).", "quantifier": "all pairs of frequencies, both polarizations and tables", "why_tests_cant": "monotonicity of interpolated values over a continuum", "anchors": ["pycomlink/processing/k_R_relation.py::a_b"]}
{"id": "C108", "title": "A small change of frequency changes the ITU parameters little", "statement": "Between two frequencies a changes by at most 0.0223 per GHz and b by at most 0.41 per GHz.", "quantifier": "all pairs of frequencies, both polarizations and tables", "why_tests_cant": "a bound over a continuum of pairs", "anchors": ["pycomlink/processing/k_R_relation.py::a_b"]}
{"id": "C109", "title": "Rain rates from frequency and polarization", "statement": "For every frequency from 1 to 100 GHz, polarization, table and positive length calc_R_from_A returns for every attenuation series a rain rate that is NaN exactly where the attenuation is, else zero or at least R_min and not negative; it does not decrease with the attenuation; attenuations made from rain rates by the power law with the parameters of a_b give back these rain rates.", "quantifier": "all frequencies, series, lengths, thresholds", "why_tests_cant": "unbounded frequencies and values; rests on the positivity of the interpolated parameters", "anchors": ["pycomlink/processing/k_R_relation.py::calc_R_from_A", "pycomlink/processing/k_R_relation.py::a_b"]}
{"id": "C110", "title": "The same attenuation means less rain at a higher frequency", "statement": "The specific attenuation a R^b increases with the frequency from 6 GHz on for R up to 100 mm/h (2003: from 8 GHz on, up to 50 mm/h); thus calc_R_from_A gives for the same attenuation, length and polarization a rain rate that is not greater at the higher frequency, if one of the two is within these limits. Outside it can be greater (98 and 99 GHz, 200 mm/h).", "quantifier": "all pairs of frequencies, all attenuations and lengths, R_min within the limit", "why_tests_cant": "a and b have opposite trends; the outcome depends on both over a continuum", "anchors": ["pycomlink/processing/k_R_relation.py::calc_R_from_A", "pycomlink/processing/k_R_relation.py::a_b"]}
{"id": "C111", "title": "Horizontal polarization attenuates at least as much as vertical", "statement": "For rain rates from 5 to 1000 mm/h and frequencies from 5 GHz on (2003: all) the specific attenuation of horizontal polarization is at least that of vertical polarization; thus calc_R_from_A gives for the same attenuation at least as much rain for vertical polarization, if one of the two rain rates is in this range. For weak rain it is not so (98 GHz, 1 mm/h).", "quantifier": "all frequencies, attenuations, lengths and R_min", "why_tests_cant": "compares two interpolated power laws over a continuum", "anchors": ["pycomlink/processing/k_R_relation.py::calc_R_from_A", "pycomlink/processing/k_R_relation.py::a_b"]}
{"id": "C112", "title": "Rain rates in floating point arithmetic", "statement": "In arithmetic with rounding (doubles included), and with any pow that follows C99 (not negative and not NaN for a base that is not negative and a positive exponent, pow(0, y) = 0), calc_R_from_A returns NaN exactly where the attenuation is NaN, else zero or a value that is not negative and at least R_min; an attenuation that is zero or negative gives zero. If pow is monotone in the base (correctly rounded pow is), more attenuation never gives a smaller rain rate.", "quantifier": "every rounding, every attenuation series, all a, b, L with a*L a positive number and 1/b > 0, every R_min that is not NaN", "why_tests_cant": "rounding errors could give negative or unordered results for single inputs", "anchors": ["pycomlink/processing/k_R_relation.py::calc_R_from_A"]}
{"id": "C113", "title": "No spurious rain in floating point arithmetic", "statement": "With the chain baseline_constant, waa_schleiss_2013, calc_R_from_A in arithmetic with rounding (doubles included), dry time steps and the first n_average_last_dry steps with finite level get a rain rate of exactly zero, every rain rate is NaN or not negative, and a constant signal gives zero at every step for any wet flags with n_average_last_dry=1.", "quantifier": "every rounding, every signal, every wet mask, all admissible parameters", "why_tests_cant": "cancellation errors might produce tiny rain rates for some signals only", "anchors": ["pycomlink/processing/baseline.py::baseline_constant", "pycomlink/processing/wet_antenna.py::waa_schleiss_2013", "pycomlink/processing/k_R_relation.py::calc_R_from_A"]}
{"id": "C114", "title": "Every function that takes a frequency works for every frequency of the table", "statement": "waa_pastorek_2021_from_A_obs, calc_R_from_A_min_max, nearby_rainfall_retrival and the chain of baseline_constant, waa_schleiss_2013 and calc_R_from_A accept every frequency from 1 to 100 GHz and both polarizations, also between the tabulated frequencies, and return what they return for the positive a and b that a_b gives for frequency and polarization, so that all properties for given a and b hold; outside this range waa_pastorek_2021_from_A_obs raises ValueError for every series.", "quantifier": "all frequencies from 1 to 100 GHz, both polarizations, all series", "why_tests_cant": "a continuum of frequencies; rests on the interpolated parameters staying positive", "anchors": ["pycomlink/processing/wet_antenna.py::waa_pastorek_2021_from_A_obs", "pycomlink/processing/k_R_relation.py::calc_R_from_A_min_max", "pycomlink/processing/k_R_relation.py::calc_R_from_A", "pycomlink/processing/nearby_rain_retrival.py::nearby_rainfall_retrival", "pycomlink/processing/k_R_relation.py::a_b"]}
{"id": "C115", "title": "With equal minimum and maximum level the nearby retrieval is calc_R_from_A", "statement": "If p_c_min and p_c_max are the same series, nearby_rainfall_retrival without F threshold returns what calc_R_from_A returns for pref - p - waa_max and R_min = 0, whatever alpha is (levels that are numbers or NaN).", "quantifier": "all series, alpha, waa_max, positive a, b and length", "why_tests_cant": "agreement of two implementations over all inputs", "anchors": ["pycomlink/processing/nearby_rain_retrival.py::nearby_rainfall_retrival", "pycomlink/processing/k_R_relation.py::calc_R_from_A"]}
{"id": "C116", "title": "Inverse distance weighting in floating point arithmetic", "statement": "In double arithmetic and whatever the order in which numpy and BLAS add: data that are not negative give values that are NaN or not negative; if the powers d^p are within 2^-900 and 2^900 and pow is accurate to two units in the last place, the value differs from the exact weighted mean by at most (k+4) 2^-50 max|z| for k neighbours, so it stays within the range of the data up to that error. If d^p overflows for all neighbours the value is NaN although there are data.", "quantifier": "all data, distances, exponents and summation orders, up to 2^20 neighbours", "why_tests_cant": "rounding errors depend on all values and on the order of summation", "anchors": ["pycomlink/spatial/idw.py::_numba_idw_loop"]}
{"id": "C117", "title": "Performance metrics of arrays with several dimensions", "statement": "calc_wet_dry_performance_metrics and calc_rain_error_performance_metrics raise AssertionError for different shapes (even with equally many elements) and TypeError for 0-d arrays; for any other shape the result is that of the flattened arrays except N_all_pairs, which is the length of the first dimension only, so the counts of classified and NaN pairs add up to N_all_pairs exactly if the other dimensions have length 1 (or there are no data). Reshaping and (in exact arithmetic) transposing both arrays changes nothing but N_all_pairs.", "quantifier": "all arrays of every shape and dimension, all values including NaN", "why_tests_cant": "infinitely many shapes; the example tests use one-dimensional arrays only", "anchors": ["pycomlink/validation/stats.py::calc_wet_dry_performance_metrics", "pycomlink/validation/stats.py::calc_rain_error_performance_metrics"]}
{"id": "C118", "title": "Rain error metrics in floating point arithmetic", "statement": "In rounded arithmetic (doubles included) and whatever the order in which numpy adds: RMSE and MAE are NaN or not negative and the Pearson correlation is NaN or within [-1, 1]; with data that are not negative so are sums, means and the coefficient of variation; a prediction equal to the finite reference gives an RMSE and MAE of exactly zero, and a coefficient of variation of exactly zero if the mean is a number other than zero. In doubles, for n <= 2^40 used pairs with finite values up to 2^400, MAE and RMSE are finite with relative errors of at most (n+2) 2^-52 and (n+4) 2^-52 (plus underflow of 2^-1075 and 2^-536).", "quantifier": "every rounding, all data, every summation order", "why_tests_cant": "rounding errors depend on all values and on the order of summation", "anchors": ["pycomlink/validation/stats.py::calc_rain_error_performance_metrics"]}
{"id": "C119", "title": "Accuracy of rain rates in floating point arithmetic", "statement": "With IEEE doubles and a pow that is right to two units in the last place, the rain rate (A/(a L))^(1/b) of calc_R_from_A has a relative error of at most 2^-46 before the cut at R_min, for attenuation, a and L between 2^-300 and 2^300, b between 1/8 and 8 and exact rates between 2^-64 and 2^64 mm/h; the result is that rate, or zero if it is below R_min.", "quantifier": "every attenuation, parameter and threshold in that range; every such pow", "why_tests_cant": "rounding errors of all inputs; samples cannot give a bound", "anchors": ["pycomlink/processing/k_R_relation.py::calc_R_from_A"]}
{"id": "C120", "title": "Accuracy of the WAA of Schleiss in floating point arithmetic", "statement": "For 3 delta_t <= tau, waa_schleiss_2013 in floating point arithmetic with relative precision u gives NaN exactly where exact arithmetic does, and otherwise the WAA at step i is right up to 16 i u B, where B bounds attenuations and waa_max; errors do not accumulate: at every step of every record it is also right up to 16 u B tau/(3 delta_t). For IEEE doubles u = 2^-53.", "quantifier": "all records of any length with gaps anywhere, every wet pattern, every rounding with such a precision", "why_tests_cant": "accumulation over long records", "anchors": ["pycomlink/processing/wet_antenna.py::waa_schleiss_2013"]}
{"id": "C121", "title": "Min/max attenuation in floating point arithmetic", "statement": "In floating point arithmetic (doubles included) _calc_A_min_max returns as many values as there are steps, NaN for the first `window` steps and never a negative value. With finite levels up to B the result differs from max(0, upper attenuation - least lower attenuation of the window) by at most 25 u B (u = 2^-53; for levels up to 1000 dB by at most 2^-38 dB), and for gT + gR >= 0 a step whose tx_max - rx_min does not exceed any tx_min - rx_max of its window (constant levels, say) gives exactly zero.", "quantifier": "all series, every window, all gT, gR; every rounding with such a precision", "why_tests_cant": "rounding errors depend on all values of the window", "anchors": ["pycomlink/processing/min_max.py::_calc_A_min_max"]}
{"id": "C122", "title": "What min/max attenuation depends on", "statement": "_calc_A_min_max is unchanged by a constant added to all four level series, and by a constant added to both rx series if there are no gaps or the constant is an even whole number; with gaps an odd offset can change the result, since gaps are filled by a mean rounded to even. A longer window never lowers the attenuation at a step with values in both.", "quantifier": "all series of numbers and NaN, windows, parameters and constants", "why_tests_cant": "relates two runs on infinitely many inputs; the exception shows for odd offsets with gaps at a tie only", "anchors": ["pycomlink/processing/min_max.py::_calc_A_min_max"]}
{"id": "C123", "title": "From the levels of a network to a rain map", "statement": "If every link is processed by baseline_constant, waa_schleiss_2013 and calc_R_from_A and the rates of one step (NaN for links out of order) are passed to IdwKdtreeInterpolator with exclude_nan=True and nnear > 1, the map has the shape of the grid; a cell is NaN exactly if no working link is within max_distance; otherwise it is at least 0 and at most the largest rate of the working links within reach, and exactly 0 if these are all dry. Constant level offsets, different for each link, do not change the map.", "quantifier": "all networks, levels, wet masks, grids and links out of order", "why_tests_cant": "whole chain of functions on infinitely many networks", "anchors": ["pycomlink/processing/baseline.py::baseline_constant", "pycomlink/processing/wet_antenna.py::waa_schleiss_2013", "pycomlink/processing/k_R_relation.py::calc_R_from_A", "pycomlink/spatial/interpolator.py::IdwKdtreeInterpolator"]}
{"id": "C124", "title": "Rain rates of the nearby approach in floating point arithmetic", "statement": "In floating point arithmetic (doubles included), with 0 <= alpha <= 1 and positive a, b and length, the rain rates of nearby_rainfall_retrival are NaN or not negative for all levels, gaps and infinities included; steps not flagged wet, whose corrected levels equal a finite reference level, get exactly 0 (or NaN by the outlier filter) for waa_max >= 0; lower corrected levels never give a lower rate, as far as both are numbers. With IEEE doubles, levels, reference and waa_max up to B and a pow right to two units in the last place, each rate is, up to 2^-45 relative and 2^-96 absolute error, the weighted mean of the power law at attenuations within 2^-50 B of max(0, pref - p_c - waa_max).", "quantifier": "all series, gaps, parameters in that range; every rounding (first three), every such pow", "why_tests_cant": "rounding errors and NaN propagation over all inputs", "anchors": ["pycomlink/processing/nearby_rain_retrival.py::nearby_rainfall_retrival"]}
{"id": "C125", "title": "Small changes of the levels change the results little", "statement": "If no level of a record changes by more than E and gaps stay gaps, no value of baseline_constant (any n_average_last_dry >= 1) or of baseline_linear (with NaN flags, either ignore_nan) changes by more than E; with 3*delta_t <= tau the WAA of waa_schleiss_2013 changes by at most 2E and trsl - baseline - waa by at most 4E, however long the record; every rain rate of the changed record lies between those of calc_R_from_A at A - 4E and A + 4E, A being the attenuation of the original record.", "quantifier": "all records with gaps, wet masks, parameters and all changes up to E", "why_tests_cant": "errors could grow along a record through the recursion of baseline and WAA; no finite set of records rules that out", "anchors": ["pycomlink/processing/baseline.py::baseline_constant", "pycomlink/processing/baseline.py::baseline_linear", "pycomlink/processing/wet_antenna.py::waa_schleiss_2013", "pycomlink/processing/k_R_relation.py::calc_R_from_A"]}
{"id": "C126", "title": "Baselines are accurate in floating point arithmetic", "statement": "In floating point arithmetic of relative precision u, for levels that are missing or at most B in magnitude, baseline_constant gives NaN exactly where exact arithmetic does and elsewhere a value within 5 n^2 u B of the exact one (n = n_average_last_dry), however long the record and however many wet periods follow each other; baseline_linear is within 12 u B. With IEEE doubles this holds for n <= 2^25 and B between 2^-900 and 2^500.", "quantifier": "all records with gaps, wet masks, n and every rounding of that precision", "why_tests_cant": "rounding errors could accumulate over wet periods, which average over results of earlier ones; not visible in finitely many records", "anchors": ["pycomlink/processing/baseline.py::baseline_constant", "pycomlink/processing/baseline.py::baseline_linear"]}
{"id": "C127", "title": "Rain rates of the whole chain are accurate in floating point arithmetic", "statement": "For levels missing or at most B in magnitude, waa_max <= B and 3*delta_t <= tau, the attenuation trsl - baseline - waa of baseline_constant and waa_schleiss_2013 in floating point arithmetic of relative precision u is NaN exactly where that of exact arithmetic is and elsewhere within (10 n^2 + 48 m + 11) u B of it, where n = n_average_last_dry and m is the smaller of record length and tau/(3 delta_t). With IEEE doubles and a pow right to two units in the last place, calc_R_from_A then gives, up to 2^-46 relative and 2^-99 absolute error and before rates below R_min are set to 0, a rate between those of the power law at A - e and A + e, e being that bound.", "quantifier": "all records with gaps, wet masks and parameters in that range; every rounding of that precision and every such pow", "why_tests_cant": "accumulation of rounding errors over whole records through three functions", "anchors": ["pycomlink/processing/baseline.py::baseline_constant", "pycomlink/processing/wet_antenna.py::waa_schleiss_2013", "pycomlink/processing/k_R_relation.py::calc_R_from_A"]}
{"id": "C128", "title": "A record can be processed in pieces", "statement": "If a record is cut before n_average_last_dry dry steps, baseline_constant of the two pieces, put together, is baseline_constant of the whole record, and so are the rain rates after waa_schleiss_2013 and calc_R_from_A (gaps allowed anywhere, an infinite level not at the cut; waa_max >= 0, tau not 0); with fewer dry steps this can fail. baseline_linear can be computed in pieces sharing a dry step s: the first gives the values before s, the second those after s, and at s one of the two is right, also with unknown flags and either ignore_nan. Min/max attenuation can be computed in pieces overlapping by window steps if no level is missing; with gaps it cannot.", "quantifier": "all records, cuts, wet masks, parameters, gaps; every number type (rounding included)", "why_tests_cant": "infinitely many records and cuts; dependence on distant data only shows for some of them", "anchors": ["pycomlink/processing/baseline.py::baseline_constant", "pycomlink/processing/baseline.py::baseline_linear", "pycomlink/processing/wet_antenna.py::waa_schleiss_2013", "pycomlink/processing/k_R_relation.py::calc_R_from_A", "pycomlink/processing/min_max.py::_calc_A_min_max"]}
{"id": "C129", "title": "What the nearby approach depends on in space and time", "statement": "The flag nearby_wetdry gives link i at a step depends only on pmin and length of the links within the radius, from one look-back period (timeperiod*60/interval steps) before the step to two steps after it: any other network, whose series may start and end at other times, that agrees in these (and has these steps) gives the same flag. F at a step depends on the last 4*timeperiod steps and the look-back period before them. The rain rate of the pipeline nearby_wetdry, nearby_determine_reference_level, nearby_correct_received_signals, nearby_rainfall_retrival depends on the averaging time of the reference level (or 4*timeperiod steps) plus the look-back period, and on two steps after. The two later steps are needed: the last two steps of a series are flagged wet whatever the levels.", "quantifier": "all networks, distances, parameters, levels with gaps, steps and starting points", "why_tests_cant": "relates runs on infinitely many pairs of networks; hidden dependences show for some pairs only", "anchors": ["pycomlink/processing/wet_dry/nearby_wetdry.py::nearby_wetdry", "pycomlink/processing/nearby_rain_retrival.py::nearby_determine_reference_level", "pycomlink/processing/nearby_rain_retrival.py::nearby_correct_received_signals", "pycomlink/processing/nearby_rain_retrival.py::nearby_rainfall_retrival"]}
{"id": "C130", "title": "The processing chains recover the rain that made the levels", "statement": "Let the level of a link be its dry level plus, at wet steps, the attenuation a*R^b*L of rain of rate R and a film of water that grows as in Schleiss et al. (2013) (none when dry, the fraction 3*delta_t/tau of what is missing to waa_max per wet step). If the first n_average_last_dry steps are dry and the dry level does not change from n_average_last_dry steps before a wet step to that step, baseline_constant is the dry level, waa_schleiss_2013 the film and calc_R_from_A of the rest gives back R at wet steps (0 below R_min) and 0 at dry steps; the same with baseline_linear if first and last step are dry and the dry level is linear over each event. If each level is only known up to E and all is done in IEEE doubles, the rate is, up to 2^-46 relative and 2^-99 absolute error and before the cut at R_min, between those of a*R^b*L - 4E - e and a*R^b*L + 4E + e, where e is the rounding bound of the chain, however long the record. The nearby retrieval with correct flags and a constant dry level gives alpha*R_largest + (1-alpha)*R_smallest if pmin and pmax are lowered by waa_max and the attenuation of the largest and smallest rate of the step, 0 at dry steps, and NaN where too few of the last n_average_dry steps were dry.", "quantifier": "all rain rates, dry levels, wet masks, parameters, measurement errors up to E, record lengths", "why_tests_cant": "correctness of the whole chain against the physical model behind it for all records, which a round trip on samples cannot show", "anchors": ["pycomlink/processing/baseline.py::baseline_constant", "pycomlink/processing/baseline.py::baseline_linear", "pycomlink/processing/wet_antenna.py::waa_schleiss_2013", "pycomlink/processing/k_R_relation.py::calc_R_from_A", "pycomlink/processing/nearby_rain_retrival.py::nearby_rainfall_retrival"]}
{"id": "C131", "title": "Metrics of combined, exchanged and rescaled data", "statement": "The wet/dry counts of two data sets put together are the sums of their counts, and the rates the quotients of these. For the rain metrics of finite data with valid pairs in both parts the sums add up; means and mean absolute error are means of the parts' values weighted by valid pairs, the squared RMSE likewise, and false and missed wet rate weighted by dry and wet reference values (a part without any does not count). A correlation does not combine: two perfectly correlated parts can form a negatively correlated whole. Exchanging reference and prediction exchanges sums and means and keeps RMSE, MAE and correlation. Changing the unit and zero of all values and of the threshold (x to s*x + c, s > 0) multiplies RMSE and MAE by s, changes means and precipitation rates like the values, keeps correlation and rates, and with c = 0 the coefficient of variation.", "quantifier": "all data sets with NaN anywhere, thresholds, units", "why_tests_cant": "relates runs on infinitely many data sets; a wrong weighting or normalisation shows only for unequal parts", "anchors": ["pycomlink/validation/stats.py::calc_wet_dry_performance_metrics", "pycomlink/validation/stats.py::calc_rain_error_performance_metrics"]}
{"id": "C132", "title": "The look-up tables for wet antenna attenuation recover the rain up to their resolution", "statement": "Let the observed attenuation of a link be a*R^b*L (at most 1000 dB, a and b of the ITU table) of rain of rate R plus the wet antenna attenuation this rain causes. What waa_pastorek_2021_from_A_obs leaves of it, A', is not negative and agrees with the true attenuation A up to a factor of 1.36 (the spacing of the 100 table points) or, near 0, up to 1.4e-10 dB; with zeta <= b it is never below A. For every frequency from 1 to 100 GHz, both polarizations and zeta <= 0.67 (default 0.55), calc_R_from_A of A' with the same frequency gives a rate from R to 1.6 R before the cut at R_min, if A is 0 or at least 1.9e-10 dB. The same factors hold in both directions for waa_leijnse_2008_from_A_obs, as far as attenuation and its WAA together increase with the rain.", "quantifier": "all rain rates, lengths, frequencies, polarizations and parameters in that range, lists of any length", "why_tests_cant": "the error between table points depends on all parameters at once; sampled comparisons do not bound it", "anchors": ["pycomlink/processing/wet_antenna.py::waa_pastorek_2021_from_A_obs", "pycomlink/processing/wet_antenna.py::waa_leijnse_2008_from_A_obs", "pycomlink/processing/k_R_relation.py::calc_R_from_A"]}
{"id": "C133", "title": "What a map interpolated by inverse distance weighting depends on", "statement": "A cell of the map of IdwKdtreeInterpolator (exclude_nan) depends only on the distances and values of the data points with a value within max_distance, and if there are enough, only on those up to a distance that includes nnear of them, as long as points equally far from the cell are all or all not among the nnear nearest (and coincide in value if closer than 1e-10). So the map does not depend on the implementation of the search tree or the order of the points, points without a value can be left out, moving, turning or mirroring points and grid together changes nothing, and remote points do not matter. Where equally far points compete for the last place, the order of the points can matter. The map is linear in the data; if data exceed others by amounts between lo and hi, so does the map. At distance d of a data point, the others being at least s > d away and differing in value by at most B, the map differs from the value by at most (nnear-1)*(d/s)^p*B.", "quantifier": "all data sets, grids, nnear > 1, exponents, max_distance and conforming search trees", "why_tests_cant": "relates runs on infinitely many pairs of data sets, and holds for every tree implementation", "anchors": ["pycomlink/spatial/interpolator.py::IdwKdtreeInterpolator", "pycomlink/spatial/idw.py::Invdisttree.__call__", "pycomlink/spatial/idw.py::_numba_idw_loop"]}
{"id": "C134", "title": "Aggregating in two steps", "statement": "For an aggregation that combines (sum, minimum, maximum: order within groups irrelevant, aggregate of a union the aggregate of the aggregates), resample_to_grid_time_series to a fine grid and of the result to a coarse grid, whose stamps are stamps of the fine grid, is the same as to the coarse grid directly. For aggregate_df_onto_DatetimeIndex this holds if the coarse index covers the data on the side the labels do not point to, and every coarse stamp within the data is the fine label of some sample. Otherwise it can fail: the direct aggregation drops samples before the first coarse stamp that two steps keep, and two steps can lose a whole last group. With means it fails if groups differ in size.", "quantifier": "all samples, fine and coarse time indices, labels right and left, combining aggregations", "why_tests_cant": "relates two runs with one for infinitely many indices; effects at the borders only show for some of them", "anchors": ["pycomlink/util/temporal.py::aggregate_df_onto_DatetimeIndex", "pycomlink/validation/validator.py::GridValidator.resample_to_grid_time_series"]}
{"id": "C135", "title": "Blackout detection in pieces", "statement": "The blackout masks (forward and two-sided) of a record cut into any number of pieces that begin and end with valid samples are the masks of the pieces put together. Away from the ends of the record, whether a gap is masked depends only on the two samples before and the two samples after it, and only on which samples are missing and which are below the threshold. Cut next to a gap, or with a piece that ends with a missing sample (the markers treat the record as cyclic), gaps are lost.", "quantifier": "all records, cuts, thresholds", "why_tests_cant": "infinitely many records and cuts; the cyclic comparison shows only for particular ends", "anchors": ["pycomlink/processing/blackout_gap_detection.py::get_blackout_start_and_end", "pycomlink/processing/blackout_gap_detection.py::created_blackout_gap_mask_from_start_end_markers"]}
{"id": "C136", "title": "Rain maps recover smooth rain fields", "statement": "If the data are the values of a field up to E and the field changes by at most L per unit of distance, a cell of the map of IdwKdtreeInterpolator with a data point in reach is finite and differs from the field there by at most L*rho + E, where rho is any distance within which nnear data points, or all data points in reach, lie (so max_distance always serves). The same for the whole way from the levels of a network (baseline_constant, waa_schleiss_2013, calc_R_from_A, interpolation): if the levels of the working links are made by rain as in C130 and the rain at a step is on each path that of the field at the centre up to E, the map differs from the field by at most L*rho + E + R_min. Uniform rain of a rate not below R_min is exactly this rate in each cell in reach of a working link.", "quantifier": "all fields, networks with links out of order, wet masks, dry levels, grids, nnear > 1, exponents, conforming search trees", "why_tests_cant": "correctness of the whole way from levels to map against the rain for infinitely many fields and networks", "anchors": ["pycomlink/processing/baseline.py::baseline_constant", "pycomlink/processing/wet_antenna.py::waa_schleiss_2013", "pycomlink/processing/k_R_relation.py::calc_R_from_A", "pycomlink/spatial/interpolator.py::IdwKdtreeInterpolator"]}
{"id": "C137", "title": "The chain with the Pastorek correction recovers the rain from the levels", "statement": "Let the level of a link be its dry level plus, at wet steps, the attenuation a*R^b*L (a, b of the ITU table; 0 or from 1.9e-10 to 1000 dB) and the wet antenna attenuation which rain of rate R causes according to Pastorek et al. (2021). Under the conditions of C130 on the dry level, baseline_constant or baseline_linear, waa_pastorek_2021_from_A_obs of trsl - baseline and calc_R_from_A of the rest give at each wet step R or up to 1.6 R, never less (0 below R_min), and 0 at dry steps, for every frequency from 1 to 100 GHz, both polarizations and zeta <= 0.67. But the correction does not tolerate noise: one step whose level is below the baseline makes waa_pastorek_2021_from_A_obs and waa_leijnse_2008_from_A_obs raise for the whole series.", "quantifier": "all rain rates, dry levels, wet masks, frequencies, lengths, parameters, record lengths", "why_tests_cant": "correctness of the whole chain against the physical model behind it for all records and links", "anchors": ["pycomlink/processing/baseline.py::baseline_constant", "pycomlink/processing/baseline.py::baseline_linear", "pycomlink/processing/wet_antenna.py::waa_pastorek_2021_from_A_obs", "pycomlink/processing/k_R_relation.py::calc_R_from_A"]}
{"id": "C138", "title": "What wet/dry classifications by networks depend on", "statement": "mlp_wet_dry gives the same probabilities with a constant added to a channel (another one for each), for each of the four models and whatever the classifiers are. It can be applied in pieces: online models with 40 steps of overlap, offline models with 758 (380 before, 378 after). cnn_wd can be applied in pieces that overlap by window - 1 steps, and treats each link by itself. wet_dry_1d_cnn gives the same if a variable is given in other units (a*x + b with a > 0, the same for all links and steps), for each network; but it neither treats links by themselves nor can it be applied in pieces, since features are scaled with all data of the call.", "quantifier": "all records, gaps, cuts, offsets, units, batch sizes, networks that treat samples by themselves (units and offsets: all networks)", "why_tests_cant": "relates runs on infinitely many records, and holds for every network", "anchors": ["pycomlink/processing/wet_dry/mlp.py::mlp_wet_dry", "pycomlink/processing/pytorch_utils/run_inference.py::cnn_wd", "pycomlink/processing/tensorflow_utils/run_inference.py::wet_dry_1d_cnn"]}
{"id": "C139", "title": "Minimum and maximum levels recover the rain up to their resolution", "statement": "Let the transmitted level be constant within each step, and the minimum and maximum of transmitted and received level be known up to half their resolution gT, gR (as by rounding). Then _calc_A_min_max gives from step window on the largest loss of the step minus the smallest loss of the last window + 1 steps or up to 2*(gT+gR) less, never more and never negative; both bounds are reached. If the loss is a constant plus a*R^b*L of rain with rate R, and it is dry at some moment of the last window + 1 steps, calc_R_from_A_min_max gives at most the largest rate of the step divided by ln k + 0.57721566, and at least the value for a loss smaller by 2*(gT+gR) (0 if below R_min). If the transmitter changes its level within a step (power control), a link with constant loss gets attenuation out of nothing.", "quantifier": "all losses and rain rates within and between steps, transmitted levels, resolutions, windows, record lengths", "why_tests_cant": "correctness against the rain behind the levels for all records; samples do not bound the effect of rounding", "anchors": ["pycomlink/processing/min_max.py::_calc_A_min_max", "pycomlink/processing/k_R_relation.py::calc_R_from_A_min_max"]}
{"id": "C140", "title": "The nearby approach flags what most links within the radius see, and the whole chain then recovers the rain", "statement": "nearby_wetdry with thresh_median_P = -dP and thresh_median_PL = -dL, for levels that are numbers or NaN. A link has data at a step if its level there is a number and min_hours of numbers lie in the look-back period; it has fallen by d if its level is more than d below the level of some step of the period. At a step at which at most min_links links within the radius of a link have data its flag is NaN. At any other step it is 0 or 1; it is 1 if more than half of these links have fallen by dP and more than half (perhaps others) by dL times their length, whatever the levels of the rest, also of the link itself; and it is 0, except at the first and the last two steps of the series, if more than half have not fallen by dP (or by dL times the length) at this step and at those of the steps one before, one after and two after at which the link itself has fallen by 2 dB. A failure of fewer than half of the links therefore never makes a link wet and never hides rain. If the minimum levels of the links within the radius are constant apart from rainy steps, where they are lowered by more than both thresholds at more than half of the links, and every rainy step has a dry step in its look-back period, then nearby_wetdry, nearby_determine_reference_level, nearby_correct_received_signals and nearby_rainfall_retrival together return, for a link whose levels are lowered by waa_max + a R**b L for the largest and smallest rain rate of the step, alpha times the largest plus (1 - alpha) times the smallest rate at rainy steps and 0 at all others, once min_hours of data have passed and min_periods of the last n_average_dry steps are dry and away from rain and the ends of the series.", "quantifier": "every set of links, distances, levels, thresholds, window lengths, minimum numbers and rain rates", "why_tests_cant": "tests run one data set; that any minority of broken links is harmless, that rain seen by a majority is always found, and that the four functions together return the true rate, concerns all inputs", "anchors": ["pycomlink/processing/wet_dry/nearby_wetdry.py::nearby_wetdry", "pycomlink/processing/nearby_rain_retrival.py::nearby_determine_reference_level", "pycomlink/processing/nearby_rain_retrival.py::nearby_correct_received_signals", "pycomlink/processing/nearby_rain_retrival.py::nearby_rainfall_retrival"]}
{"id": "C141", "title": "Functions on whole datasets", "statement": "Called on DataArrays with a time dimension and any further dimensions in any order (one channel, many CMLs with several channels, ...), baseline_constant, waa_schleiss_2013, waa_leijnse_2008_from_A_obs, waa_pastorek_2021_from_A_obs, calc_R_from_A and nearby_rainfall_retrival return for every channel exactly the series that the function gives for the series of this channel and for the scalar parameters of this channel (single objects, or DataArrays without time dimension such as one length per CML or one frequency per channel). Parameters that are left out have the documented defaults (n_average_last_dry 1; R_min 0.1 mm/h and the ITU 2005 table; T_K 293, gamma 2.06e-5, delta 0.24, n_antenna 1.73+0.014i, l_antenna 1 mm; A_max 14, zeta 0.55, d 0.1; waa_max 2.3, alpha 0.33, F_value_threshold -32.5), and parameters may be given by position or by keyword in any order. The calls succeed whenever dimensions of the same name have the same size, none but time is empty, and the function succeeds for every channel. get_blackout_start_and_end, which returns two series, raises ValueError for every such dataset of levels.", "quantifier": "every dataset, every number, order and size of dimensions, every parameter, every channel", "why_tests_cant": "tests call each function on one or two arrays with fixed dimensions; that no channel ever receives data or parameters of another one, for any arrangement of the dimensions, concerns all datasets", "anchors": ["pycomlink/processing/xarray_wrapper.py::xarray_apply_along_time_dim", "pycomlink/processing/baseline.py::baseline_constant", "pycomlink/processing/wet_antenna.py::waa_schleiss_2013", "pycomlink/processing/wet_antenna.py::waa_leijnse_2008_from_A_obs", "pycomlink/processing/wet_antenna.py::waa_pastorek_2021_from_A_obs", "pycomlink/processing/k_R_relation.py::calc_R_from_A", "pycomlink/processing/nearby_rain_retrival.py::nearby_rainfall_retrival", "pycomlink/processing/blackout_gap_detection.py::get_blackout_start_and_end"]}
{"id": "C142", "title": "Processing a whole dataset of CMLs", "statement": "The processing of the example notebook (baseline_constant, waa_schleiss_2013, attenuation as difference of DataArrays, negative attenuations set to 0, calc_R_from_A with length, frequency and polarization of each CML) applied to whole datasets gives for every channel exactly the rain rates of this channel processed alone, in an array with the dimensions of the inputs. It succeeds whenever the inputs agree about the sizes of their dimensions, no dimension besides time is empty and every single channel can be processed. If the levels are numbers, n_average_last_dry is at least 1, waa_max and delta_t are not negative, tau and the lengths are positive and the frequencies are between 1 and 100 GHz, all rain rates are numbers and not negative, and 0 at dry steps and at the first n_average_last_dry steps. Setting negative attenuations to 0 has no effect on the rain rates.", "quantifier": "every dataset, every number, order and size of dimensions, every parameter, every channel", "why_tests_cant": "tests process single CMLs; that the chain of calls on arrays with different dimension orders never mixes channels, and never fails when no channel does, concerns all datasets", "anchors": ["pycomlink/processing/xarray_wrapper.py::xarray_apply_along_time_dim", "pycomlink/processing/baseline.py::baseline_constant", "pycomlink/processing/wet_antenna.py::waa_schleiss_2013", "pycomlink/processing/k_R_relation.py::calc_R_from_A"]}
{"id": "C143", "title": "Distances between end points in floating point", "statement": "Computed in floating point, the distances between CML end points keep their structure exactly, not only up to rounding: the four matrices of calc_distance_between_cml_endpoints are zero on the diagonal, a_to_all_a and b_to_all_b are symmetric, b_to_all_a is the transpose of a_to_all_b, and coinciding end points have distance exactly zero. No distance is negative or larger than the computed half circumference (one may be NaN, where rounding lifts the square of the half chord above one).", "quantifier": "all finite coordinates, any number of CMLs; every rounding symmetric in sign; all sin, cos, radians and arctan2 that are odd or even, bounded and in the right quadrant", "why_tests_cant": "a test compares a few distances with a tolerance; that the matrices are bitwise symmetric for all coordinates follows from the symmetry of every single operation", "anchors": ["pycomlink/spatial/helper.py::haversine", "pycomlink/spatial/helper.py::calc_distance_between_cml_endpoints"]}
{"id": "C144", "title": "Accuracy of the computed distances", "statement": "For coordinates at most 89 degrees north or south the distance haversine computes in double precision differs from the exact great circle distance by at most 0.1 mm, up to a quarter of the circumference. So do all entries of the four matrices, and for every radius that no exact distance of a pair meets within 0.1 mm nearby_wetdry selects exactly the links for which all four exact distances are smaller than the radius.", "quantifier": "all coordinates with |lon| at most 360 and |lat| at most 89, all pairs of links, all radii; all sin, cos, radians, sqrt and arctan2 with errors of a few units in the last place", "why_tests_cant": "the bound holds for all coordinates, also for tiny distances where the formula could cancel", "anchors": ["pycomlink/spatial/helper.py::haversine", "pycomlink/spatial/helper.py::calc_distance_between_cml_endpoints", "pycomlink/processing/wet_dry/nearby_wetdry.py::nearby_wetdry"]}
{"id": "C145", "title": "Nearby wet/dry decisions do not depend on rounding or small level errors away from the thresholds", "statement": "Run nearby_wetdry on two versions of a network: the same links, path lengths of at least 100 m, the same gaps, and minimum levels that differ by at most E dB (E at most 40, levels at most 950 dB in size). Then both runs succeed, and the wet flag of a link at a time step is the same in both, unless at one of the steps from one before to two after it (those that enter the flag through the smearing of wet periods) the median drop of the links within the radius is within 2E of its threshold, the median drop per km is within 20E of its threshold, or the drop of the link itself is within 2E of -2 dB. The same holds for the function in double precision compared with exact arithmetic on the same numbers: from the coordinates to the flags, with the distances computed in doubles by accurate sine, cosine, square root and arctangent functions, the flags are those of exact arithmetic with exact great circle distances unless a distance between end points is within 0.1 mm of the radius or a median or drop is within 3e-10 of its threshold.", "quantifier": "for all networks, gaps, parameters, level errors E, links and time steps, for all trigonometric functions of the stated accuracy", "why_tests_cant": "Tests compare flags of example networks with stored values; the claim is about every pair of networks whose levels are close and about every rounding of every intermediate result, including where ties in the median change places.", "anchors": ["pycomlink/processing/wet_dry/nearby_wetdry.py::nearby_wetdry", "pycomlink/processing/wet_dry/nearby_wetdry.py::calc_distance_between_cml_endpoints", "pycomlink/spatial/helper.py::haversine"]}
{"id": "C146", "title": "Coordinate labels of datasets", "statement": "Decorated functions compare the coordinate labels of their arguments: if an argument has a time dimension and two arguments have different labels for the same dimension (other time stamps, other CMLs, or the same ones in another order), the call raises ValueError. If a call returns an array, its values are those of the call without labels, and it has exactly the labels of its arguments. So the processing of a labelled dataset (baseline, wet antenna attenuation, differences, rain rate) never combines different links: it returns an array only if the labels of all inputs agree, the result has the labels of all inputs, and at every combination of labels the rain rates are those computed from the levels, flags, length, frequency and polarization with these labels. Differences a - b of two DataArrays behave otherwise: they succeed for different labels, keep the labels that both have in the order of a, and subtract entries with equal labels.", "quantifier": "all signatures and functions, all arrays, dimension orders and labels of any type; for entries by label: distinct labels", "why_tests_cant": "tests use arrays made with the same coordinates; that no call mixes up links or time stamps for any order and subset of labels concerns all labelings", "anchors": ["pycomlink/processing/xarray_wrapper.py::xarray_apply_along_time_dim", "pycomlink/processing/baseline.py::baseline_constant", "pycomlink/processing/wet_antenna.py::waa_schleiss_2013", "pycomlink/processing/k_R_relation.py::calc_R_from_A"]}
{"id": "C147", "title": "Rain rates of the nearby approach with level errors and in double precision", "statement": "Run the nearby approach (nearby_wetdry, nearby_determine_reference_level, nearby_correct_received_signals, nearby_rainfall_retrival with given a and b and without outlier filter) on measured minimum and maximum levels that differ from the true ones by at most E dB, with the same gaps. For every link and time step at which no decision in the reference period is close in the sense of C145 and the true minimum level does not exceed the true maximum level: the wet flags agree, reference level and corrected levels differ by at most E and are missing at the same steps, and the rain rate lies between the weighted means (alpha) of the power law for the attenuations of the true run minus 2E and plus 2E. In double precision, from coordinates and measured levels to rain rates, the same holds with 2E + 1e-10 dB in place of 2E, up to a relative error of 2^-45 and an absolute error of 2^-96 of the rate; missing rates are missing in both.", "quantifier": "for all networks, gaps, parameters, level errors E up to 40 dB, reference windows, wet antenna attenuations, alpha between 0 and 1, links and time steps; all power functions accurate to two units in the last place, all trigonometric functions of the accuracy of C143", "why_tests_cant": "Tests compare a few rates with stored values; the claim bounds the effect of quantised levels and of every rounding in the chain on every rate, including steps at which a comparison with the reference level changes its result.", "anchors": ["pycomlink/processing/wet_dry/nearby_wetdry.py::nearby_wetdry", "pycomlink/processing/nearby_rain_retrival.py::nearby_determine_reference_level", "pycomlink/processing/nearby_rain_retrival.py::nearby_correct_received_signals", "pycomlink/processing/nearby_rain_retrival.py::nearby_rainfall_retrival"]}
{"id": "C148", "title": "Processing a dataset recovers the rain of every link", "statement": "Take a labelled dataset of CMLs (any number of CMLs and channels, any order of dimensions, parameters as numbers or as arrays per CML or channel) whose variables agree in labels and sizes. For every channel let the recorded level be, up to E dB, the dry level plus at wet steps the attenuation a*R^b*L of rain of rate R (a and b of the ITU table for frequency and polarization of this channel, L the length of this CML) and a film of water that grows as in Schleiss et al. (2013), under the conditions of C130 on dry level and flags. Then baseline_constant, waa_schleiss_2013, the differences and calc_R_from_A applied to the whole dataset succeed, the result has exactly the labels and dimensions of the inputs, and at every channel and step the rain rate, before rates below 0.1 mm/h are set to 0, lies between those of the power law for A - 4E and A + 4E, where A is the attenuation by rain of this channel. For E = 0 it is exactly R at wet steps (0 below 0.1 mm/h) and 0 at dry steps.", "quantifier": "all datasets, labels, dimension orders and sizes, frequencies from 1 to 100 GHz, polarizations, lengths, rain rates, dry levels, flags, errors E per channel, record lengths", "why_tests_cant": "tests use one dataset with stored results; that each link gets its own rain back concerns all datasets and all rain", "anchors": ["pycomlink/processing/xarray_wrapper.py::xarray_apply_along_time_dim", "pycomlink/processing/baseline.py::baseline_constant", "pycomlink/processing/wet_antenna.py::waa_schleiss_2013", "pycomlink/processing/k_R_relation.py::calc_R_from_A", "pycomlink/processing/k_R_relation.py::a_b"]}
{"id": "C149", "title": "Rain rates from minimum and maximum levels in double precision", "statement": "With IEEE doubles and a pow and log right to two units in the last place, calc_R_from_A_min_max with given a and b (parameters far from overflow, b between 1/8 and 8, k from 1 on) returns NaN for a missing attenuation, 0 for a negative one, and otherwise (A/(a*L))**(1/b) / (ln k + 0.57721566) up to a relative error of 2^-43 and an absolute error of 2^-99, or 0 if this is below R_min. Together with _calc_A_min_max: let the transmitted level be constant within each step, the four extreme levels (at most 1000 dB) be known up to half their resolution gT, gR, the loss be a constant plus a*R^b*L of rain with rate R, and at some moment of the last window + 1 steps be dry. Then the computed rate is, up to these errors, at most the rate of the strongest loss of the step increased by 2^-38 dB and at least that of this loss reduced by 2*(gT+gR) + 2^-38 dB (each divided by ln k + 0.57721566; 0 if below R_min).", "quantifier": "all attenuations, parameters in this range, losses and rain rates within and between steps, resolutions, windows, record lengths; every such pow and log", "why_tests_cant": "Tests compare a few rates with stored values to some digits; the claim bounds the effect of every rounding and of the resolution of the levels on every rate.", "anchors": ["pycomlink/processing/min_max.py::_calc_A_min_max", "pycomlink/processing/k_R_relation.py::calc_R_from_A_min_max"]}
{"id": "C150", "title": "Series too short for the rolling windows", "statement": "nearby_wetdry, on well-formed input with interval > 0, returns a result exactly if at least one and at most all values of the look-back period are required (1 <= min_hours*60//interval <= timeperiod*60//interval), the look-back period is not longer than the series and, if some link has more than min_links neighbours, 4*timeperiod steps are not more than the series has; otherwise it raises ValueError (ZeroDivisionError for interval 0). So hourly data with the default look-back of 24 hours raise ValueError if they have less than 96 steps. nearby_determine_reference_level succeeds exactly if 1 <= min_periods <= n_average_dry <= number of time steps, else raises ValueError. mlp_wet_dry with an offline model raises ValueError exactly for series of less than 361 samples.", "quantifier": "all networks, distances, parameters, series of any length, classifiers", "why_tests_cant": "tests run each function on one record that is long enough; that no shorter record gives a result, and each longer one does, concerns all lengths and parameters", "anchors": ["pycomlink/processing/wet_dry/nearby_wetdry.py::nearby_wetdry", "pycomlink/processing/nearby_rain_retrival.py::nearby_determine_reference_level", "pycomlink/processing/wet_dry/mlp.py::mlp_wet_dry"]}
{"id": "C151", "title": "Coverage mask in terms of distances", "statement": "With max_dist_from_cml > 0, calc_coverage_mask marks only grid points that are within max_dist_from_cml of the straight path of some CML, and marks all grid points within 99.8 percent of this distance. Between the two the mask depends on the polygons of shapely: around every CML with two different end points there is a point nearer than 99.97 percent of the distance that is not marked. A larger distance or more CMLs only add marked points. For max_dist_from_cml <= 0 no point is marked, not even on the paths.", "quantifier": "all CMLs (also with equal end points), grids, distances; exact arithmetic", "why_tests_cant": "tests look at one grid with one polygon; the claim concerns every point of the plane, every direction and length of the paths and every distance", "anchors": ["pycomlink/spatial/coverage.py::calc_coverage_mask"]}
{"id": "C152", "title": "Time stamps and frequencies of cmlh5 files in double precision", "statement": "read_cmlh5_file_to_xarray computes time stamps as (time * 1e9).astype('datetime64[ns]') in doubles. For times of whole seconds from 1824 to 2115 the time stamps are exact, although most counts of nanoseconds are no doubles; second 4611686019 is the first that is not (off by 512 ns). So a file of such times is read exactly as with exact arithmetic: samples of different channels are aligned exactly if their times are equal. Any other time from 1837 to 2102 is off by less than half a microsecond; later times never get earlier time stamps, and times at least a microsecond apart get different ones. A missing time (NaN) becomes the missing time stamp NaT, which no time in this range does. Times that are closer can get the same time stamp (two doubles in July 2017, 0.24 microseconds apart). A frequency of whole Hz (up to 2^53) becomes the double nearest to its value in GHz.", "quantifier": "all files, times and frequencies in these ranges; IEEE binary64 with round to nearest even", "why_tests_cant": "tests read one file and look at a few values; that no second of three centuries is moved by rounding concerns every time", "anchors": ["pycomlink/io/cmlh5_to_xarray.py::read_cmlh5_file_to_xarray"]}
{"id": "C153", "title": "Scores of an estimate with bounded errors", "statement": "If estimate and reference differ by at most E wherever both have a value, calc_rain_error_performance_metrics reports RMSE, mean absolute error and difference of means of at most E, sums that differ by at most E per used pair, and a coefficient of variation times mean reference of at most E; an estimate too high by E everywhere attains these bounds. A pair is false wet (missed wet) only if its reference is at most E below (above) the threshold, and the false and missed wet precipitation rates exceed the threshold by at most E. For E = 0 RMSE and MAE are 0, sums and means equal, the correlation 1 (NaN for a constant reference) and the wet rates 0 or NaN. Hence every channel of a dataset processed as in C148 without errors of the levels scores an RMSE of at most 0.1 mm/h against its true rain (0 if no wet step has less than 0.1 mm/h) and no false or missed wet step at the threshold 0.1 mm/h.", "quantifier": "all series with NaN anywhere, thresholds, bounds E; all datasets as in C148", "why_tests_cant": "relates the scores to the processing for all inputs at once", "anchors": ["pycomlink/validation/stats.py::calc_rain_error_performance_metrics", "pycomlink/processing/k_R_relation.py::calc_R_from_A"]}
{"id": "C154", "title": "Wet antenna attenuation of Pastorek et al. in doubles", "statement": "With positive finite parameters, a monotone pow and an exp that stays between 0 and 1 for arguments that are not positive, waa_pastorek_2021 computes in doubles a finite value between 0 and A_max for every rain rate that is not negative (infinite ones too), exactly 0 for rain rate 0 and NaN for NaN; it does not decrease with the rain rate if exp is monotone. If pow and exp are accurate to two units in the last place the value differs from A_max (1 - exp(-d R^zeta)) by at most 2^-48 A_max. The relative error is not bounded: with a correctly rounded exp every rain rate whose computed d R^zeta is at most 2^-55 gives exactly 0.", "quantifier": "all rain rates, all finite positive parameters (accuracy: A_max in [2^-300, 2^300], d up to 2^100, R^zeta up to 2^900), every accurate pow and exp", "why_tests_cant": "tests compare a few values with eight digits", "anchors": ["pycomlink/processing/wet_antenna.py::waa_pastorek_2021"]}
{"id": "C155", "title": "STFT: what makes a sample wet", "statement": "For a finite series and a dry period with some power at every frequency, stft_classification flags the sample at t as wet exactly if the mean over the frequencies up to f_divide of the ratio (spectral density around t)/(mean spectral density in the dry period) exceeds the mean of this ratio over the higher frequencies by more than the threshold. Hence t is wet if all slow fluctuations have at least a times and all fast ones at most b times the power of the dry period with a - b > threshold, dry in the opposite case, and more slow or less fast power around t never turns a wet sample dry.", "quantifier": "every finite series, window, threshold, dividing frequency and dry period whose windows lie in the series", "why_tests_cant": "relates flags to the signal for all series; the tests only look at one example", "anchors": ["pycomlink/processing/wet_dry/stft.py::stft_classification"]}
{"id": "C156", "title": "The chain with the linear baseline is accurate in floating point arithmetic", "statement": "For levels that are missing or at most B in magnitude, wet flags of any values (missing ones included), waa_max <= B and 3 delta_t <= tau, the attenuation trsl - baseline_linear - waa_schleiss_2013 computed in floating point arithmetic of relative precision u is NaN exactly where that of exact arithmetic is and otherwise within (48 m + 35) u B of it, m being the smaller of the length of the record and tau / (3 delta_t). The rain rates calc_R_from_A gives for it in IEEE doubles lie, before the cut at R_min, between the rates of the power law at attenuations that much smaller and larger, up to a relative error of 2^-46 and an absolute one of 2^-99.", "quantifier": "all records with gaps, wet flags, both settings of ignore_nan, parameters in the stated ranges, every rounding of that precision", "why_tests_cant": "Tests compare with values computed by the same doubles; that the error does not grow with the length of wet events or the number of interpolation steps concerns every record.", "anchors": ["pycomlink/processing/baseline.py::baseline_linear", "pycomlink/processing/wet_antenna.py::waa_schleiss_2013", "pycomlink/processing/k_R_relation.py::calc_R_from_A"]}
{"id": "C157", "title": "From recorded levels, with errors and in doubles, to the rain that made them", "statement": "If every recorded level (a double of magnitude at most B) is within delta of the level that dry level, attenuation a R^b L by rain and film of water on the antennas give, and the dry level behaves as the baseline method assumes (constant from n steps before a wet step on, or linear over each event with dry first and last step), the rain rates computed in IEEE doubles by baseline_constant or baseline_linear, waa_schleiss_2013 and calc_R_from_A are numbers which, before those below R_min are set to zero, lie between the rates of the power law at A - e and A + e up to 2^-46 relative and 2^-99 absolute error; A is the attenuation by the rain that fell (0 at dry steps), e = 4 delta + (10 n^2 + 48 m + 11) 2^-53 B or 4 delta + (48 m + 35) 2^-53 B, m the smaller of length and tau / (3 delta_t).", "quantifier": "all rain series, wet masks, dry levels, level errors up to delta, records and parameters in the stated ranges, both baselines", "why_tests_cant": "Tests have no truth to compare with; here level errors (such as quantisation) and rounding errors are traced together from the antenna to the rain rate.", "anchors": ["pycomlink/processing/baseline.py::baseline_constant", "pycomlink/processing/baseline.py::baseline_linear", "pycomlink/processing/wet_antenna.py::waa_schleiss_2013", "pycomlink/processing/k_R_relation.py::calc_R_from_A"]}
{"id": "C158", "title": "Rain maps in double precision", "statement": "If data at some points are the values of a field f up to E, f changes by at most lambda per unit of distance and |data| <= M, a cell which Invdisttree (inverse distance weighting) computes in IEEE doubles from k neighbours within rho, in whatever order numpy adds and however inexact the distances of the tree are, differs from f there by at most lambda rho + E + (k + 4) 2^-50 M + 2^-1050. If the data are rain rates which baseline_constant, waa_schleiss_2013 and calc_R_from_A compute in doubles from recorded levels made by rain that is on each link f up to E, and level and rounding errors change the rates by at most eta, this holds with E + eta + R_min in place of E.", "quantifier": "all fields, networks, records, neighbour lists of up to 2^20 points, summation orders; pow accurate to two units in the last place and close to the real power function", "why_tests_cant": "Tests compare a map with a stored map; here the whole way from antenna levels to map cells is traced with level errors and rounding for every network.", "anchors": ["pycomlink/spatial/idw.py::Invdisttree", "pycomlink/spatial/interpolator.py::IdwKdtreeInterpolator", "pycomlink/processing/baseline.py::baseline_constant", "pycomlink/processing/wet_antenna.py::waa_schleiss_2013", "pycomlink/processing/k_R_relation.py::calc_R_from_A"]}
{"id": "C159", "title": "Grids of integers and all-NaN data", "statement": "The map for data that are all NaN is np.zeros_like(xgrid) filled with NaN. If the grid has an integer type (given so, or generated from integer coordinates and an integer resolution), IdwKdtreeInterpolator and OrdinaryKrigingInterpolator raise ValueError instead of returning a map of NaN. With any number in the data, or a grid of floats, types do not matter. A call that raised this way has no effect on later calls.", "quantifier": "all data, coordinates, grids, resolutions, types, settings and histories of calls", "why_tests_cant": "The error occurs only if a time step without any data meets an integer grid; tests use float grids.", "anchors": ["pycomlink/spatial/interpolator.py::PointsToGridInterpolator", "pycomlink/spatial/interpolator.py::IdwKdtreeInterpolator", "pycomlink/spatial/interpolator.py::OrdinaryKrigingInterpolator"]}
{"id": "C160", "title": "nearby_wetdry with integer levels", "statement": "If pmin has an integer type (levels in whole dB), nearby_wetdry stores its results in arrays of that type (xr.full_like). It raises exactly when it would for the same levels as floats; flags 0 and 1 are the same; F is cut off towards zero; where F would be NaN it is c and where a flag would be NaN it is c or 1, c being what the machine makes of NaN (-2^63 on x86, 0 on ARM); the first and the last two steps of links with enough links within the radius are wet even if nothing is known; links with too few have c everywhere. With the retrieval behind it, c <= threshold and threshold < 0, the rain rate is NaN where F is no number (in particular at the first 4 timeperiod - 1 steps, where float levels pass the filter) and where F <= floor(threshold), i.e. -33 instead of the default -32.5, and otherwise what float levels give without filter.", "quantifier": "all networks, integer levels, distances, parameters, thresholds below 0 and values c other than 1", "why_tests_cant": "Tests use float levels; the effect of the type is silent and differs between machines.", "anchors": ["pycomlink/processing/wet_dry/nearby_wetdry.py::nearby_wetdry", "pycomlink/processing/nearby_rain_retrival.py::nearby_rainfall_retrival", "pycomlink/processing/nearby_rain_retrival.py::nearby_determine_reference_level"]}
{"id": "C161", "title": "Single precision numbers in wet_dry_1d_cnn", "statement": "create_samples casts the data to float32, the scaled features and the probabilities are float32 as well. For a network that treats each sample by itself, whatever rounding errors StandardScaler makes, step t of link c has a probability exactly if all numbers of the window of seq_len steps that ends at t are numbers below 2^128 - 2^103 in magnitude (larger ones become infinite and the window is dropped like one with NaN); it is the float32 value of the network's output for the rounded and scaled numbers of this window, where the scaling uses the rounded numbers of all such windows of all links. Without any such window IndexError is raised. The cast changes numbers by at most the fraction 2^-24 (2^-150 near zero), whole numbers up to 2^24 and NaN not at all, and keeps probabilities in [0, 1].", "quantifier": "all datasets, networks that treat samples one by one, scalers, sequence lengths; real numbers", "why_tests_cant": "Tests use values for which single precision makes no visible difference; overflow in the cast is never reached.", "anchors": ["pycomlink/processing/tensorflow_utils/inference_utils.py::create_samples", "pycomlink/processing/tensorflow_utils/inference_utils.py::scale_features", "pycomlink/processing/tensorflow_utils/run_inference.py::wet_dry_1d_cnn"]}
{"id": "C162", "title": "What wrong wet flags do to the rain rates", "statement": "Let the levels be those of a dry level, of the attenuation A = a R^b L by rain and of a film of water on the antennas, and process them with wet flags that differ from the steps with rain by baseline_constant, waa_schleiss_2013 and calc_R_from_A (the dry level does not change from n_average_last_dry steps before a flagged step to this step). Steps that are not flagged and steps without rain get rain rate 0. Steps with rain that are flagged get, before the cut at R_min, at least the rate of A - E, E being the largest attenuation by rain and film at a step with rain that is not flagged, and at most that of A plus the film, at most R if no step since the rain started was missed. Hence flags at steps without rain do no harm: if no step with rain is missed the rates are exactly R (for baseline_linear too). With n_average_last_dry = 1, missing the first step of an event in which the rain does not become stronger makes all of its rain rates 0. With levels that are wrong by up to delta, in doubles, the bounds hold with e of C157 subtracted from or added to the attenuations.", "quantifier": "all rain series, dry levels, wet flags, level errors and parameters in the stated ranges", "why_tests_cant": "tests use flags that match the data; how errors of the classification propagate through baseline, film and power law concerns all combinations of missed steps and false alarms", "anchors": ["pycomlink/processing/baseline.py::baseline_constant", "pycomlink/processing/baseline.py::baseline_linear", "pycomlink/processing/wet_antenna.py::waa_schleiss_2013", "pycomlink/processing/k_R_relation.py::calc_R_from_A"]}
{"id": "C163", "title": "Wet antenna attenuation from the observed attenuation in doubles", "statement": "waa_pastorek_2021_from_A_obs in double arithmetic, for A_max up to 2^14 dB: the grid of np.logspace is within the fraction 2^-45 of its exact values, and for any such grid observations from 0 to the end of the table (at least 999 dB) give finite values that are not negative, at most A_max and at most the observed attenuation (up to the fraction 2^-49), exactly 0 for 0, NaN for NaN; all others raise ValueError. For zeta up to 1, frequencies of 1 to 100 GHz, paths of 0.1 to 50 km and observations from 0 to 999 dB the result differs from the one in exact arithmetic by at most (2^-40 + 2^11 e) A_max + 2^-44 A_obs, e being the relative error of the power-law parameter a and the absolute error of 1 / b.", "quantifier": "all lists of observations, frequencies, path lengths and parameters in the stated ranges; power and exponential function accurate to the last bits and monotone", "why_tests_cant": "Tests compare a few values to six digits; that rounding cannot break the order of the table (which interp1d needs), push the result above A_max or above the observation, or be amplified by the division in the interpolation concerns all doubles.", "anchors": ["pycomlink/processing/wet_antenna.py::waa_pastorek_2021_from_A_obs", "pycomlink/processing/wet_antenna.py::waa_pastorek_2021", "pycomlink/processing/k_R_relation.py::calc_R_from_A"]}
{"id": "C164", "title": "Levels to rain with the looked-up wet antenna attenuation, in doubles", "statement": "With baseline_constant over the last dry value (n_average_last_dry = 1), waa_pastorek_2021_from_A_obs and calc_R_from_A run in doubles: if every recorded level is within delta of the one that a dry level unchanged through the event, the attenuation A = a R^b L by rain and the film of this rain give, and no level of a wet step is below that of the last dry step (or more than 998 dB above it), the chain succeeds; dry steps get rate 0 and, before rates below R_min are set to zero, wet steps a rate between those of the power law at A - e and max(1.36 A, 1.4e-10) + e up to 2^-46 relative and 2^-99 absolute error, with e = 2 delta + (2^-39 + 2^11 eps) A_max + 2^-32 and eps the error of the power-law parameters as in C163. A level of one wet step below that of the last dry step, by however little, makes the correction raise ValueError for the whole record. With an average over n dry values or with baseline_linear (dry level constant over the averaged steps, or linear across each event), let c = 2 delta + 5 n^2 2^-53 B or 2 delta + 12 2^-53 B with B the greatest level: if rain and film together attenuate by at least c at each wet step, the chain succeeds with the same bounds for c in place of 2 delta, and dry steps still get rate 0. With n_average_last_dry = 3 it raises even for the constant level 0.1 without noise, as the rounded mean exceeds the level. (The last two are negative results.)", "quantifier": "all rain series, dry levels, wet masks and level errors, frequencies of 1 to 100 GHz, paths of 0.1 to 50 km, zeta up to 0.67, parameters in the stated ranges; power and exponential function accurate to the last bits and monotone", "why_tests_cant": "Tests run the correction on a handful of attenuations, never behind a baseline; that rounding, level errors and the resolution of the table add up to no more than e, and which records make the chain raise, concerns all records.", "anchors": ["pycomlink/processing/baseline.py::baseline_constant", "pycomlink/processing/baseline.py::baseline_linear", "pycomlink/processing/wet_antenna.py::waa_pastorek_2021_from_A_obs", "pycomlink/processing/k_R_relation.py::calc_R_from_A"]}
{"id": "C165", "title": "Errors in mm/h and scores of the rain rates of a record processed in doubles", "statement": "Under the conditions of C157 (levels within delta of those that dry level, rain and film give; baseline_constant or baseline_linear, waa_schleiss_2013, calc_R_from_A in doubles) let e be the error bound of the attenuation there, Rmax a bound of the rain, E = (e / (a L))^(1/b) for b >= 1 and E = (1/b) (Rmax^b + e / (a L))^(1/b - 1) e / (a L) for b <= 1, D = (1 + 2^-46) E + 2^-46 Rmax + 2^-99. Then every rain rate is within D + R_min of the rain that fell (0 at dry steps), within D where at least R_min + D fell, and 0 where less than R_min - D fell; calc_rain_error_performance_metrics reports RMSE, mean absolute error and difference of means of at most D + R_min against the rain that fell, and no false or missed wet step if no rain is within D + R_min of the threshold. aggregate_df_onto_DatetimeIndex of estimates with errors up to D and of the rain gives the same stamps (or the same exception), means that differ by at most D and sums that differ by at most D for each sample of the group.", "quantifier": "all rain series, wet masks, dry levels, level errors, records and parameters as in C157; all thresholds; all time indices, labels and zones", "why_tests_cant": "Tests compare the chain with stored numbers; a bound in mm/h for the rates and for the scores of the record holds for all rain and all errors of the levels.", "anchors": ["pycomlink/processing/baseline.py::baseline_constant", "pycomlink/processing/baseline.py::baseline_linear", "pycomlink/processing/wet_antenna.py::waa_schleiss_2013", "pycomlink/processing/k_R_relation.py::calc_R_from_A", "pycomlink/validation/stats.py::calc_rain_error_performance_metrics", "pycomlink/util/temporal.py::aggregate_df_onto_DatetimeIndex"]}
{"id": "C166", "title": "What gaps in the levels do to the rain rates", "statement": "Let levels be made as in C130 (dry level constant from n steps before each event, rain R with attenuation a R^b L, film of Schleiss et al. during wet steps) and let any of them be missing (NaN). baseline_constant is NaN exactly at dry steps that are missing and at all steps of an event before which one of the n steps has no baseline, the dry level elsewhere. The rain rate of baseline_constant, waa_schleiss_2013, calc_R_from_A is NaN exactly where the level or the baseline is; elsewhere it is (before the cut at R_min) 0 at dry steps, R at steps of an event before its first gap, and never above R. After a gap inside an event the antennas count as fully wet: right after it the rate is that of the attenuation a R^b L - (waa_max - film), below R whenever it rains and the film is not yet complete, and it stays so while the observed attenuation is at least waa_max; it is never below that. Later events are recovered as if there had been no gap, unless their reference steps are missing. With baseline_linear (dry level linear across each event, first and last step dry) the same holds with a baseline that is NaN at missing dry steps and, if the dry step before or after an event is missing, from the dry step before the event, although its level may be known, to the last wet step. (The underestimation after a gap and the lost dry step are negative results.)", "quantifier": "all rain series, wet masks, dry levels, sets of missing steps, n >= 1, 3 delta_t <= tau", "why_tests_cant": "Tests feed NaN to the functions one at a time and compare with stored arrays; which rates are lost and how far the others are off depends on the position of every gap in its event.", "anchors": ["pycomlink/processing/baseline.py::baseline_constant", "pycomlink/processing/baseline.py::baseline_linear", "pycomlink/processing/wet_antenna.py::waa_schleiss_2013", "pycomlink/processing/k_R_relation.py::calc_R_from_A"]}
{"id": "C167", "title": "Rain rates in IEEE doubles from recorded levels with gaps", "statement": "Let every recorded level be missing (NaN) or within delta of a level as in C130. In IEEE doubles with an accurate power the chain baseline_constant, waa_schleiss_2013, calc_R_from_A then returns NaN exactly at the steps whose level or whose baseline (as in C166) is missing; at the others the rate (before the cut at R_min, up to 2^-46 relative and 2^-99 absolute error) is between those of the power law at A - e and A + e, e = 4 delta + (10 n^2 + 48 m + 11) 2^-53 B, where A is the attenuation that C166 gives in exact arithmetic: 0 at dry steps, a R^b L before the first gap of the event, max(0, a R^b L - (waa_max - film)) right after a gap, and between these bounds always. The same with baseline_linear and e = 4 delta + (48 m + 35) 2^-53 B. So neither rounding nor noise makes a NaN appear, vanish or spread further than in exact arithmetic, and errors do not grow behind gaps.", "quantifier": "all records of doubles and NaN, wet masks, rain series, dry levels, sets of missing steps, level errors, parameters in the ranges of C157", "why_tests_cant": "Tests check NaN handling on a few short arrays; that rounding errors stay bounded through a recursion that is restarted by NaN is about all records.", "anchors": ["pycomlink/processing/baseline.py::baseline_constant", "pycomlink/processing/baseline.py::baseline_linear", "pycomlink/processing/wet_antenna.py::waa_schleiss_2013", "pycomlink/processing/k_R_relation.py::calc_R_from_A"]}
{"id": "C168", "title": "Scores of estimates that are never too high, and of records with gaps", "statement": "If an estimate is nowhere above the reference, calc_rain_error_performance_metrics gives a sum and a mean of the estimate not above those of the reference (below them if it is lower anywhere), a mean absolute error that is exactly the difference of the means, a false wet rate of 0 (NaN if no pair is dry) and NaN as false wet precipitation rate, at every threshold. For the rain rates of baseline_constant or baseline_linear, waa_schleiss_2013, calc_R_from_A on a record with gaps as in C166 (exact arithmetic, at least one step with a rate), scored against the rain that fell: the pairs left out are exactly the steps without level or baseline; the reference sum is the rain at the other steps only, so rain that fell at lost steps is not counted as missed; the estimate is biased low, strictly so as soon as it rains right after a gap inside an event while the antennas are still getting wet; the RMSE is 0 if no gap lies inside an event before a step with a rate and all such rain is at least R_min.", "quantifier": "all references, estimates, thresholds; all rain series, wet masks, dry levels and sets of missing steps as in C166", "why_tests_cant": "Tests compute the metrics for one stored pair of arrays; the direction of the bias that gaps cause holds for all records.", "anchors": ["pycomlink/validation/stats.py::calc_rain_error_performance_metrics", "pycomlink/processing/baseline.py::baseline_constant", "pycomlink/processing/baseline.py::baseline_linear", "pycomlink/processing/wet_antenna.py::waa_schleiss_2013", "pycomlink/processing/k_R_relation.py::calc_R_from_A"]}
{"id": "C169", "title": "Scores in doubles of records with gaps", "statement": "If an estimate is nowhere more than D above the reference, calc_rain_error_performance_metrics gives a mean at most D and a sum at most D per pair above those of the reference, a mean absolute error equal to the difference of the means up to 2 D, and no false wet steps unless a reference lies within D below the threshold. For baseline_constant or baseline_linear, waa_schleiss_2013, calc_R_from_A in double arithmetic on levels with gaps as in C167, with D the bound of C165: rates are NaN exactly where level or baseline are missing; elsewhere no rate is more than D above the rain that fell, up to the first gap of an event it is within D + R_min of it, and right after a gap it is at most D above the rate that is left with fully wet antennas. Scored against the rain that fell, exactly the steps without level or baseline are left out, the reference sum is that of the other steps, mean and sum of the estimate are not above those of the reference by more than D and D per step; without gaps inside events RMSE, mean absolute error and bias are at most D + R_min.", "quantifier": "all references, estimates and thresholds; all parameters and recorded levels in the ranges of C165, all sets of missing steps, errors of the levels up to delta; power function accurate to the last bits", "why_tests_cant": "Gaps, rounding and scoring interact; a test sees a single record with a single pattern of gaps.", "anchors": ["pycomlink/validation/stats.py::calc_rain_error_performance_metrics", "pycomlink/processing/baseline.py::baseline_constant", "pycomlink/processing/baseline.py::baseline_linear", "pycomlink/processing/wet_antenna.py::waa_schleiss_2013", "pycomlink/processing/k_R_relation.py::calc_R_from_A"]}
{"id": "C170", "title": "Outlier measure and outlier filter of the nearby approach for levels with errors", "statement": "Two calls of nearby_wetdry on the same links and gaps whose levels differ by at most E (lengths of at least 0.1 km, exact arithmetic) give outlier measures F that are NaN at the same steps and elsewhere differ by at most 4 timeperiod x 40 E x interval / 60. With an outlier threshold in nearby_rainfall_retrival: where F of a link is further than this from the threshold, both runs remove the rate or both keep it; a kept rate is that of C147, i.e. the power law for attenuations that are off by at most 2 E, unless a wet/dry decision in the reference period is close.", "quantifier": "all networks, distances, parameters, levels up to 950 dB in absolute value with any gaps, E up to 40 dB, thresholds, scalar a and b", "why_tests_cant": "F sums hundreds of deviations from medians of neighbourhoods; how errors of the levels add up in it concerns all networks.", "anchors": ["pycomlink/processing/wet_dry/nearby_wetdry.py::nearby_wetdry", "pycomlink/processing/nearby_rain_retrival.py::nearby_rainfall_retrival"]}
{"id": "C171", "title": "wet_dry_1d_cnn merges its predictions into the dataset", "statement": "With return_ds=True (the default) and a prob_name that is not in the dataset, wet_dry_1d_cnn returns the given links, times and variables unchanged plus the predictions. If prob_name is in use, e.g. because the dataset was returned by an earlier call, stored numbers are never replaced: the call raises ValueError (MergeError) as soon as one prediction differs from the number stored for the same link and step, otherwise it fills the missing values. So a second call with another network under the same name raises unless all common predictions are equal, and the same call again changes nothing.", "quantifier": "all datasets, networks, selections of links, names that are not coordinates", "why_tests_cant": "Tests call the function once on a fresh dataset; what happens to existing values depends on the defaults of xr.merge.", "anchors": ["pycomlink/processing/tensorflow_utils/run_inference.py::wet_dry_1d_cnn", "pycomlink/processing/tensorflow_utils/inference_utils.py::store_predictions"]}
{"id": "C172", "title": "Rain maps from records with gaps", "statement": "For a network processed by baseline_constant, waa_schleiss_2013 and calc_R_from_A and a map of the rates of one step by IdwKdtreeInterpolator (exclude_nan=True): links whose level or reference level is missing at this step (C166) have no influence, the map is that of the network without them. A cell is NaN exactly if none of the other links is in reach. Elsewhere the rate is not negative and never above that of the map made from the true rain on the same links, however many levels are missing; if no level is missing earlier in the event on the links in reach it is at most R_min below. For a rain field that changes by at most Lambda per unit of distance and agrees with the rain on the links up to E, the map is nowhere above the field by more than Lambda rho + E, with rho a distance within which nnear links with a rate, or all in reach, lie; without missing levels earlier in the event it is below the field by at most Lambda rho + E + R_min.", "quantifier": "all networks, sets of missing steps per link, wet masks, rain rates, rain fields, grids, nnear > 1, maximal distances; dry levels that stay the same from n steps before an event; exact arithmetic", "why_tests_cant": "Missing levels act on a map through baseline, wet antenna recursion and the choice of neighbours; tests have complete records or single links.", "anchors": ["pycomlink/processing/baseline.py::baseline_constant", "pycomlink/processing/wet_antenna.py::waa_schleiss_2013", "pycomlink/processing/k_R_relation.py::calc_R_from_A", "pycomlink/spatial/interpolator.py::IdwKdtreeInterpolator"]}
{"id": "C173", "title": "Rain maps from records with gaps in doubles", "statement": "From recorded levels with errors up to delta and missing values to a cell of the rain map, all in IEEE doubles (baseline_constant, waa_schleiss_2013, calc_R_from_A, exclude_nan, inverse distance weights in whatever order numpy adds): the links that are left out are exactly those without level or reference level at this step. If the rain on the others is that of a field up to E, the field changes by at most Lambda per unit of distance, and level and rounding errors change the rates by at most eta, the cell is not above the field by more than Lambda rho + E + eta plus the rounding error (k + 4) 2^-50 M + 2^-1050 of the interpolation, whatever levels are missing, nor below zero by more than the latter; if on the k links used no level is missing earlier in the event, it is below the field by at most R_min more than that.", "quantifier": "all networks, gaps, parameters and levels in the ranges of C157, rain fields, neighbour lists whose first distance counts as zero or whose powers of distances lie between 2^-900 and 2^900; power function accurate to the last bits", "why_tests_cant": "Rounding, gaps, noise and interpolation act together; a test sees one network and one pattern of gaps.", "anchors": ["pycomlink/processing/baseline.py::baseline_constant", "pycomlink/processing/wet_antenna.py::waa_schleiss_2013", "pycomlink/processing/k_R_relation.py::calc_R_from_A", "pycomlink/spatial/idw.py::_numba_idw_loop", "pycomlink/spatial/interpolator.py::IdwKdtreeInterpolator"]}
{"id": "C174", "title": "Blackout detection on records of a receiver that loses the signal in heavy rain", "statement": "Let a receiver give NaN while the level is below its sensitivity S or the logger fails, let the level change by at most Delta per step and be recorded with an error of at most delta otherwise, and let rsl_threshold be at least S + Delta + delta. With the blackout mask computed forwards and on the reversed series: a gap inside the record that begins with a level below S and has two values before it, or ends with a level below S and has two values after it, is reported in full, even if the logger fails in its course. A gap at whose first and last step the level is at least rsl_threshold + Delta + delta is not reported at any step. Without logger failures, if the first two values and the last one exist and no value stands alone between two gaps, the mask is True exactly at the steps at which the level was below S.", "quantifier": "all records, sensitivities, thresholds, sets of steps with logger failure, levels with bounded change per step, recording errors; exact numbers", "why_tests_cant": "Whether the rule (a low value beside the gap) finds the blackouts is a statement about all level courses; tests use one recorded gap.", "anchors": ["pycomlink/processing/blackout_gap_detection.py::get_blackout_start_and_end", "pycomlink/processing/blackout_gap_detection.py::created_blackout_gap_mask_from_start_end_markers"]}
{"id": "C175", "title": "Wet/dry by rolling standard deviation and the rain of the documented workflow", "statement": "For wet = trsl.rolling(time=w, center=True).std() > threshold, as in the notebooks: a step is wet exactly if its window (w // 2 steps before to (w - 1) // 2 after it) lies in the record, has no NaN, and the mean squared difference of two values of the window (drawn independently) is above 2 threshold^2. Hence it is dry if all levels of the window are within threshold of some number, and wet if k levels of the window exceed j others by d with w^2 threshold^2 < k j d^2. ValueError if the record has not more than w // 2 steps. Levels with a constant dry level, rain and film as in C130, classified in this way and processed by baseline_constant, waa_schleiss_2013 and calc_R_from_A, give exactly the rain (0 below R_min) if all rain attenuates by at least d with w^2 threshold^2 < (w - 1) d^2 and the window of each step with rain lies in the record and contains a step without rain (or k and j as above). Steady rain is missed: where the level stays within threshold of some number during the window, and in the first w // 2 and last (w - 1) // 2 steps, the rain rate is 0 however strong the rain is (negative result).", "quantifier": "all records, gaps, window lengths, thresholds >= 0, rain series and chain parameters; exact arithmetic", "why_tests_cant": "The notebooks show one link and one threshold; which rain a threshold finds is a statement about all level courses.", "anchors": ["docs/notebooks/Basic CML processing workflow.ipynb", "pycomlink/tests/test_xarray_workflow.py", "pycomlink/processing/baseline.py::baseline_constant", "pycomlink/processing/wet_antenna.py::waa_schleiss_2013", "pycomlink/processing/k_R_relation.py::calc_R_from_A"]}
{"id": "C176", "title": "The documented workflow with level errors and in doubles", "statement": "Let the levels be recorded with errors up to delta, let the rolling standard deviation be computed with errors up to epsilon (0 in exact arithmetic), and process the levels by baseline_constant, waa_schleiss_2013 and calc_R_from_A in IEEE doubles. If all rain attenuates by at least A0 > 2 delta with w^2 (threshold + epsilon)^2 < (w - 1) (A0 - 2 delta)^2 and the window of each step with rain lies in the record and contains a step without rain, every step with rain is flagged wet; if delta + epsilon <= threshold, steps with no rain in their window are flagged dry. In the first case the rain rates are, up to 2^-46 relative and 2^-99 absolute error and before the cut at R_min, those of attenuations that differ from the true one by at most e = 4 delta + (10 n^2 + 48 m + 11) 2^-53 B, and without rain at most the rate of e.", "quantifier": "all records, level and classification errors, windows, thresholds, rain series on a constant dry level, and parameters in the ranges of C157; power function accurate to the last bits", "why_tests_cant": "Classification and retrieval errors act together: one missed step can remove a whole event (C162); tests have one record.", "anchors": ["docs/notebooks/Basic CML processing workflow.ipynb", "pycomlink/processing/baseline.py::baseline_constant", "pycomlink/processing/wet_antenna.py::waa_schleiss_2013", "pycomlink/processing/k_R_relation.py::calc_R_from_A"]}
{"id": "C177", "title": "Short gaps filled by linear interpolation, and the whole documented workflow", "statement": "In the preprocessing of the notebooks (default values of the logger to NaN, trsl = tsl - rsl, interpolate_na(method='linear', max_gap=g steps)): the difference is kept where neither value is the default; recorded values stay as they are; a gap inside the record of at most g steps from the value before to the value after it is filled with the straight line between these, longer gaps and those at the ends of the record stay NaN. If recorded levels are wrong by at most delta and the level changes by at most Delta per step where values are missing, filled values are wrong by at most delta + 2 Delta (i - p)(q - i)/(q - p) <= delta + Delta g / 2 for a step i of the gap between p and q. A record with short gaps only, filled (stored with errors up to eta), classified by rolling standard deviation and processed in doubles by baseline_constant, waa_schleiss_2013 and calc_R_from_A gives the rain with the bounds of C176, with delta + Delta g / 2 + eta for delta.", "quantifier": "all records, sets of missing steps, maximal gaps, levels with bounded change where values are missing; equidistant time stamps; parameters in the ranges of C157", "why_tests_cant": "Errors of filled values enter the classification, the baseline and all later steps of the event; tests do not fill gaps.", "anchors": ["docs/notebooks/Basic CML processing workflow.ipynb", "pycomlink/processing/baseline.py::baseline_constant", "pycomlink/processing/wet_antenna.py::waa_schleiss_2013", "pycomlink/processing/k_R_relation.py::calc_R_from_A"]}
{"id": "C178", "title": "Rain amounts and their maps in the documented workflow", "statement": "In the documented workflow rain amounts are sums of hourly means of the rates, and the map interpolates those of the links that are wet less often than a limit. An hourly mean is the mean of the rates present in the hour (between the smallest and the largest), NaN if there is none. If no rate is missing, the amount is the sum of the rates times the step, and the map of amounts is the sum of the maps of the single steps times the step, cell by cell, undefined in the same cells. With missing rates, the present ones of an hour stand for the whole hour: if each is within e of the true hourly mean, the amount is within e times the number of hours with rates of the true amount in these hours; hours without rates count as dry. Links wet too often (share of flags equal to 1 at or above the limit, or no flags) have no influence: leaving them out gives the same map. If the rates of the links kept are within e of the truth, the map is within e times the number of hours of the map of the true amounts. Finding: a link without any rate has the amount 0, not NaN, so that the map is 0 at its centre, whatever the others measured.", "quantifier": "all rate records with missing values, numbers of hours and steps per hour, flags, networks, grids and conforming search trees", "why_tests_cant": "The example data have no link without rates, and nothing checks the map against sums of maps", "anchors": ["docs/notebooks/Basic CML processing workflow.ipynb:844", "docs/notebooks/Basic CML processing workflow.ipynb:1869", "docs/notebooks/Basic CML processing workflow.ipynb:1945-1950", "pycomlink/spatial/interpolator.py"]}
{"id": "C179", "title": "The documented nearby link workflow recovers the rain from levels of single steps", "statement": "In the documented nearby link workflow pmin and pmax are the smallest and largest level of each interval (15 minutes) that is not missing, NaN if all are missing. Let the links within the radius have at least one level per interval, a constant level that is lowered in rainy intervals only, there for more than half of these links at some step by more than thresh_median_P, and for more than half by more than thresh_median_PL times the length, and let every rainy interval have a dry one in its look-back period. Let the levels of a link be lowered by waa_max and a*R^b*L in rainy intervals, R being the rain rate of the step. Then the rate retrieved for a rainy interval is alpha times the largest plus 1-alpha times the smallest rate of the steps with a level, and 0 for the other intervals, as soon as min_hours have passed and enough of the last n_average_dry intervals are dry and neither next to rain nor at the ends of the series. Without missing levels it differs from the mean rate of the interval by at most max(alpha, 1-alpha) times the range of the rates; it is exact for steady rain.", "quantifier": "all networks, records with missing levels, rain rates, numbers of steps per interval and parameters", "why_tests_cant": "The tests compare with stored results for one data set; the rain behind the levels is not known there", "anchors": ["docs/notebooks/Nearby link approach processing example.ipynb:533-534", "docs/notebooks/Nearby link approach processing example.ipynb:642-651", "pycomlink/processing/wet_dry/nearby_wetdry.py", "pycomlink/processing/nearby_rain_retrival.py"]}
{"id": "C180", "title": "Filling the gaps of the levels before taking the difference is never worse placed than after", "statement": "The nearby link notebook removes levels at or beyond the default values (rsl > -99.9 and tsl < 255 are kept), fills short gaps of rsl and tsl and subtracts then; the basic workflow notebook fills the difference. With the first order a step with both levels has their difference; a gap of one level is interpolated linearly if the values beside it are at most max_gap apart, and else NaN; nothing is filled before the first or after the last value of either level. If rsl and tsl are missing at the same steps, both orders give the same record. Otherwise the first order gives a value wherever the second does. With a constant transmitted level the first order is exact at every step with a received level that lies between two transmitted levels at most max_gap apart. Finding: the second order is not: rain of a single step in which only the transmitted level is missing is replaced by the levels before and after it.", "quantifier": "all records, default values and gap lengths", "why_tests_cant": "The notebooks are not tested, and each uses one of the two orders only", "anchors": ["docs/notebooks/Nearby link approach processing example.ipynb:501-504", "docs/notebooks/Nearby link approach processing example.ipynb:532", "docs/notebooks/Basic CML processing workflow.ipynb:536-595"]}
