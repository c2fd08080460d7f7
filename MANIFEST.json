{
 "claims": [
  {
   "property": "C01",
   "status": "proved",
   "theorems": [
    "Verif.Props.C01_constant_dry"
   ],
   "note": ""
  },
  {
   "property": "C02",
   "status": "proved",
   "theorems": [
    "Verif.Props.C02_constant_wet",
    "Verif.Props.C02_constant_wet_from_start",
    "Verif.Props.C02_constant_mean",
    "Verif.Props.C02_constant_last_dry",
    "Verif.Props.C02_constant_no_average_all_wet"
   ],
   "note": ""
  },
  {
   "property": "C03",
   "status": "proved",
   "theorems": [
    "Verif.Props.C03_constant_causal",
    "Verif.Props.C03_constant_range"
   ],
   "note": ""
  },
  {
   "property": "C04",
   "status": "proved",
   "theorems": [
    "Verif.Props.C04_nan_flag_is_wet",
    "Verif.Props.C04_no_nan_from_flags",
    "Verif.Props.C04_docstring_false"
   ],
   "note": ""
  },
  {
   "property": "C05",
   "status": "proved",
   "theorems": [
    "Verif.Props.C05_constant_affine",
    "Verif.Props.C05_attenuation_offset_invariant"
   ],
   "note": ""
  },
  {
   "property": "C06",
   "status": "proved",
   "theorems": [
    "Verif.Props.C06_linear_interpolates"
   ],
   "note": ""
  },
  {
   "property": "C07",
   "status": "proved",
   "theorems": [
    "Verif.Props.C07_ignore_nan_is_ffill"
   ],
   "note": ""
  },
  {
   "property": "C08",
   "status": "proved",
   "theorems": [
    "Verif.Props.C08_linear_characterisation",
    "Verif.Props.C08_nan_event_is_nan",
    "Verif.Props.C08_other_events_unaffected"
   ],
   "note": ""
  },
  {
   "property": "C09",
   "status": "proved",
   "theorems": [
    "Verif.Props.C09_linear_range",
    "Verif.Props.C09_linear_reversal"
   ],
   "note": ""
  },
  {
   "property": "C10",
   "status": "proved",
   "theorems": [
    "Verif.Props.C10_mask_characterisation",
    "Verif.Props.C10_mask_only_nan"
   ],
   "note": ""
  },
  {
   "property": "C11",
   "status": "proved",
   "theorems": [
    "Verif.Props.C11_forward_gap"
   ],
   "note": ""
  },
  {
   "property": "C12",
   "status": "proved",
   "theorems": [
    "Verif.Props.C12_two_sided_reversal",
    "Verif.Props.C12_two_sided_gap",
    "Verif.Props.C12_threshold_monotone"
   ],
   "note": ""
  },
  {
   "property": "C13",
   "status": "proved",
   "theorems": [
    "Verif.Props.C13_schleiss_bounds",
    "Verif.Props.C13_schleiss_tau_zero",
    "Verif.Props.C13_schleiss_nonneg"
   ],
   "note": ""
  },
  {
   "property": "C14",
   "status": "proved",
   "theorems": [
    "Verif.Props.C14_schleiss_ramp",
    "Verif.Props.C14_schleiss_ramp_monotone",
    "Verif.Props.C14_schleiss_dry"
   ],
   "note": ""
  },
  {
   "property": "C15",
   "status": "proved",
   "theorems": [
    "Verif.Props.C15_parameters",
    "Verif.Props.C15_pastorek",
    "Verif.Props.C15_scalar_raises"
   ],
   "note": ""
  },
  {
   "property": "C16",
   "status": "proved",
   "theorems": [
    "Verif.Props.C16_from_A_obs"
   ],
   "note": ""
  },
  {
   "property": "C17",
   "status": "proved",
   "theorems": [
    "Verif.Props.C17_no_film",
    "Verif.Props.C17_no_jump",
    "Verif.Props.C17_function"
   ],
   "note": ""
  },
  {
   "property": "C18",
   "status": "proved",
   "theorems": [
    "Verif.Props.C18_relaxation",
    "Verif.Props.C18_dispersion",
    "Verif.Props.C18_eps_water",
    "Verif.Props.C18_eps_water_limit"
   ],
   "note": ""
  },
  {
   "property": "C19",
   "status": "proved",
   "theorems": [
    "Verif.Props.C19_rain_rate",
    "Verif.Props.C19_rain_rate_range"
   ],
   "note": ""
  },
  {
   "property": "C20",
   "status": "proved",
   "theorems": [
    "Verif.Props.C20_monotone_in_A",
    "Verif.Props.C20_antitone_in_a_and_L",
    "Verif.Props.C20_depends_on_ratio"
   ],
   "note": ""
  },
  {
   "property": "C21",
   "status": "proved",
   "theorems": [
    "Verif.Props.C21_round_trip",
    "Verif.Props.C21_round_trip_back"
   ],
   "note": ""
  },
  {
   "property": "C22",
   "status": "proved",
   "theorems": [
    "Verif.Props.C22_calc_R_arguments",
    "Verif.Props.C22_calc_R_from_frequency",
    "Verif.Props.C22_nearby_arguments",
    "Verif.Props.C22_nearby_from_frequency"
   ],
   "note": ""
  },
  {
   "property": "C23",
   "status": "proved",
   "theorems": [
    "Verif.Props.C23_array_parameters",
    "Verif.Props.C23_array_values"
   ],
   "note": ""
  },
  {
   "property": "C24",
   "status": "proved",
   "theorems": [
    "Verif.Props.C24_min_max",
    "Verif.Props.C24_min_max_range"
   ],
   "note": ""
  },
  {
   "property": "C25",
   "status": "proved",
   "theorems": [
    "Verif.Props.C25_accepts_iff",
    "Verif.Props.C25_entries",
    "Verif.Props.C25_tabulated",
    "Verif.Props.C25_string_polarization"
   ],
   "note": ""
  },
  {
   "property": "C26",
   "status": "proved",
   "theorems": [
    "Verif.Props.C26_tables_well_formed"
   ],
   "note": ""
  },
  {
   "property": "C27",
   "status": "proved",
   "theorems": [
    "Verif.Props.C27_minmax_nonneg",
    "Verif.Props.C27_rint_nearest",
    "Verif.Props.C27_minmax_value"
   ],
   "note": ""
  },
  {
   "property": "C28",
   "status": "proved",
   "theorems": [
    "Verif.Props.C28_agrees_with_python",
    "Verif.Props.C28_silently_accepted",
    "Verif.Props.C28_missing_argument"
   ],
   "note": ""
  },
  {
   "property": "C29",
   "status": "proved",
   "theorems": [
    "Verif.Props.C29_slicewise",
    "Verif.Props.C29_independent",
    "Verif.Props.C29_succeeds",
    "Verif.Props.C29_no_time",
    "Verif.Props.C29_two_outputs"
   ],
   "note": ""
  },
  {
   "property": "C30",
   "status": "proved",
   "theorems": [
    "Verif.Props.C30_metric",
    "Verif.Props.C30_meridian"
   ],
   "note": ""
  },
  {
   "property": "C31",
   "status": "proved",
   "theorems": [
    "Verif.Props.C31_entries",
    "Verif.Props.C31_structure",
    "Verif.Props.C31_own_neighbour"
   ],
   "note": ""
  },
  {
   "property": "C32",
   "status": "proved",
   "theorems": [
    "Verif.Props.C32_value",
    "Verif.Props.C32_nonpos",
    "Verif.Props.C32_local"
   ],
   "note": ""
  },
  {
   "property": "C33",
   "status": "proved",
   "theorems": [
    "Verif.Props.C33_rule"
   ],
   "note": ""
  },
  {
   "property": "C34",
   "status": "proved",
   "theorems": [
    "Verif.Props.C34_smear"
   ],
   "note": ""
  },
  {
   "property": "C35",
   "status": "proved",
   "theorems": [
    "Verif.Props.C35_offsets",
    "Verif.Props.C35_permutation",
    "Verif.Props.C35_local"
   ],
   "note": ""
  },
  {
   "property": "C36",
   "status": "proved",
   "theorems": [
    "Verif.Props.C36_median",
    "Verif.Props.C36_wet_ignored",
    "Verif.Props.C36_bounds"
   ],
   "note": ""
  },
  {
   "property": "C37",
   "status": "proved",
   "theorems": [
    "Verif.Props.C37_levels",
    "Verif.Props.C37_idempotent"
   ],
   "note": ""
  },
  {
   "property": "C38",
   "status": "proved",
   "theorems": [
    "Verif.Props.C38_mixture",
    "Verif.Props.C38_no_threshold",
    "Verif.Props.C38_F_length"
   ],
   "note": ""
  },
  {
   "property": "C39",
   "status": "proved",
   "theorems": [
    "Verif.Props.C39_no_rain_when_dry"
   ],
   "note": ""
  },
  {
   "property": "C40",
   "status": "proved",
   "theorems": [
    "Verif.Props.C40_counts_are_counts",
    "Verif.Props.C40_counts_partition",
    "Verif.Props.C40_length_mismatch"
   ],
   "note": ""
  },
  {
   "property": "C41",
   "status": "proved",
   "theorems": [
    "Verif.Props.C41_rates"
   ],
   "note": ""
  },
  {
   "property": "C42",
   "status": "proved",
   "theorems": [
    "Verif.Props.C42_mcc_range",
    "Verif.Props.C42_mcc_no_wet_predicted",
    "Verif.Props.C42_mcc_nan_iff",
    "Verif.Props.C42_mcc_formula",
    "Verif.Props.C42_mcc_one_iff",
    "Verif.Props.C42_mcc_symmetric",
    "Verif.Props.C42_mcc_not_symmetric"
   ],
   "note": ""
  },
  {
   "property": "C43",
   "status": "proved",
   "theorems": [
    "Verif.Props.C43_rain_multiset",
    "Verif.Props.C43_rain_perm",
    "Verif.Props.C43_wetdry_multiset",
    "Verif.Props.C43_wetdry_perm"
   ],
   "note": ""
  },
  {
   "property": "C44",
   "status": "proved",
   "theorems": [
    "Verif.Props.C44_values",
    "Verif.Props.C44_inequalities",
    "Verif.Props.C44_pearson",
    "Verif.Props.C44_counts"
   ],
   "note": ""
  },
  {
   "property": "C45",
   "status": "proved",
   "theorems": [
    "Verif.Props.C45_rates",
    "Verif.Props.C45_precipitation_rates",
    "Verif.Props.C45_threshold_value_is_dry"
   ],
   "note": ""
  },
  {
   "property": "C46",
   "status": "proved",
   "theorems": [
    "Verif.Props.C46_value",
    "Verif.Props.C46_bounds",
    "Verif.Props.C46_constant",
    "Verif.Props.C46_scale_free",
    "Verif.Props.C46_errors",
    "Verif.Props.C46_point"
   ],
   "note": ""
  },
  {
   "property": "C47",
   "status": "proved",
   "theorems": [
    "Verif.Props.C47_transparent",
    "Verif.Props.C47_stale",
    "Verif.Props.C47_stale_witness"
   ],
   "note": ""
  },
  {
   "property": "C48",
   "status": "proved",
   "theorems": [
    "Verif.Props.C48_history",
    "Verif.Props.C48_all_nan",
    "Verif.Props.C48_value"
   ],
   "note": ""
  },
  {
   "property": "C49",
   "status": "proved",
   "theorems": [
    "Verif.Props.C49_generated",
    "Verif.Props.C49_given_or_error",
    "Verif.Props.C49_points_inside",
    "Verif.Props.C49_calls",
    "Verif.Props.C49_calls_error"
   ],
   "note": ""
  },
  {
   "property": "C50",
   "status": "proved",
   "theorems": [
    "Verif.Props.C50_positive",
    "Verif.Props.C50_bounds_one_hour",
    "Verif.Props.C50_season"
   ],
   "note": ""
  },
  {
   "property": "C51",
   "status": "proved",
   "theorems": [
    "Verif.Props.C51_windows",
    "Verif.Props.C51_small_reflength",
    "Verif.Props.C51_assertions",
    "Verif.Props.C51_shared_target"
   ],
   "note": ""
  },
  {
   "property": "C52",
   "status": "proved",
   "theorems": [
    "Verif.Props.C52_batches",
    "Verif.Props.C52_placement",
    "Verif.Props.C52_no_window"
   ],
   "note": ""
  },
  {
   "property": "C53",
   "status": "proved",
   "theorems": [
    "Verif.Props.C53_store_wraps",
    "Verif.Props.C53_store_index_error",
    "Verif.Props.C53_samples",
    "Verif.Props.C53_store",
    "Verif.Props.C53_length_mismatch",
    "Verif.Props.C53_round_trip",
    "Verif.Props.C53_pipeline"
   ],
   "note": ""
  },
  {
   "property": "C54",
   "status": "proved",
   "theorems": [
    "Verif.Props.C54_standardized",
    "Verif.Props.C54_affine_map",
    "Verif.Props.C54_affine_invariant",
    "Verif.Props.C54_global"
   ],
   "note": ""
  },
  {
   "property": "C55",
   "status": "proved",
   "theorems": [
    "Verif.Props.C55_online",
    "Verif.Props.C55_causal",
    "Verif.Props.C55_errors",
    "Verif.Props.C55_offline",
    "Verif.Props.C55_offline_local"
   ],
   "note": ""
  },
  {
   "property": "C56",
   "status": "proved",
   "theorems": [
    "Verif.Props.C56_threshold",
    "Verif.Props.C56_padding",
    "Verif.Props.C56_scale",
    "Verif.Props.C56_computed",
    "Verif.Props.C56_errors",
    "Verif.Props.C56_mirror_error",
    "Verif.Props.C56_dry_period_error",
    "Verif.Props.C56_value",
    "Verif.Props.C56_no_reference",
    "Verif.Props.C56_size_error",
    "Verif.Props.C56_frequency_error"
   ],
   "note": ""
  },
  {
   "property": "C57",
   "status": "proved",
   "theorems": [
    "Verif.Props.C57_lowest",
    "Verif.Props.C57_errors",
    "Verif.Props.C57_first_window_all_dry"
   ],
   "note": ""
  },
  {
   "property": "C58",
   "status": "proved",
   "theorems": [
    "Verif.Props.C58_last_download",
    "Verif.Props.C58_download",
    "Verif.Props.C58_once",
    "Verif.Props.C58_separate",
    "Verif.Props.C58_truncated",
    "Verif.Props.C58_truncated_get_model",
    "Verif.Props.C58_list_empty"
   ],
   "note": ""
  },
  {
   "property": "C59",
   "status": "proved",
   "theorems": [
    "Verif.Props.C59_shared_entry",
    "Verif.Props.C59_independent",
    "Verif.Props.C59_key",
    "Verif.Props.C59_same_name_collision",
    "Verif.Props.C59_trailing_slash",
    "Verif.Props.C59_directory"
   ],
   "note": ""
  },
  {
   "property": "C60",
   "status": "proved",
   "theorems": [
    "Verif.Props.C60_get_model",
    "Verif.Props.C60_resolve"
   ],
   "note": ""
  },
  {
   "property": "C61",
   "status": "proved",
   "theorems": [
    "Verif.Props.C61_groups",
    "Verif.Props.C61_sum",
    "Verif.Props.C61_errors",
    "Verif.Props.C61_duplicates",
    "Verif.Props.C61_zone"
   ],
   "note": ""
  },
  {
   "property": "C62",
   "status": "proved",
   "theorems": [
    "Verif.Props.C62_full_grid",
    "Verif.Props.C62_weighted_sum",
    "Verif.Props.C62_no_weight"
   ],
   "note": ""
  },
  {
   "property": "C63",
   "status": "proved",
   "theorems": [
    "Verif.Props.C63_mask",
    "Verif.Props.C63_short_ygrid",
    "Verif.Props.C63_set",
    "Verif.Props.C63_union",
    "Verif.Props.C63_distance"
   ],
   "note": ""
  },
  {
   "property": "C64",
   "status": "proved",
   "theorems": [
    "Verif.Props.C64_structure",
    "Verif.Props.C64_errors",
    "Verif.Props.C64_first_channel",
    "Verif.Props.C64_reads"
   ],
   "note": ""
  },
  {
   "property": "C65",
   "status": "proved",
   "theorems": [
    "Verif.Props.C65_string_polarization_rejected"
   ],
   "note": ""
  },
  {
   "property": "C66",
   "status": "proved",
   "theorems": [
    "Verif.Props.C66_leijnse_from_A_obs"
   ],
   "note": ""
  },
  {
   "property": "C67",
   "status": "proved",
   "theorems": [
    "Verif.Props.C67_F_score"
   ],
   "note": ""
  },
  {
   "property": "C68",
   "status": "proved",
   "theorems": [
    "Verif.Props.C68_positional"
   ],
   "note": ""
  },
  {
   "property": "C69",
   "status": "proved",
   "theorems": [
    "Verif.Props.C69_aliased_query"
   ],
   "note": ""
  },
  {
   "property": "C70",
   "status": "proved",
   "theorems": [
    "Verif.Props.C70_aliased_points"
   ],
   "note": ""
  },
  {
   "property": "C71",
   "status": "proved",
   "theorems": [
    "Verif.Props.C71_multi_output"
   ],
   "note": ""
  },
  {
   "property": "C72",
   "status": "proved",
   "theorems": [
    "Verif.Props.C72_id_coord_checked",
    "Verif.Props.C72_id_coord_unused",
    "Verif.Props.C72_missing_variable",
    "Verif.Props.C72_no_variables"
   ],
   "note": ""
  },
  {
   "property": "C73",
   "status": "proved",
   "theorems": [
    "Verif.Props.C73_errors",
    "Verif.Props.C73_resample"
   ],
   "note": ""
  },
  {
   "property": "C74",
   "status": "proved",
   "theorems": [
    "Verif.Props.C74_rates"
   ],
   "note": ""
  },
  {
   "property": "C75",
   "status": "proved",
   "theorems": [
    "Verif.Props.C75_transmission_loss"
   ],
   "note": ""
  },
  {
   "property": "C76",
   "status": "proved",
   "theorems": [
    "Verif.Props.C76_nonneg_and_dry",
    "Verif.Props.C76_at_most_uncorrected"
   ],
   "note": ""
  },
  {
   "property": "C77",
   "status": "proved",
   "theorems": [
    "Verif.Props.C77_offset",
    "Verif.Props.C77_causal"
   ],
   "note": ""
  },
  {
   "property": "C78",
   "status": "proved",
   "theorems": [
    "Verif.Props.C78_negative_waa",
    "Verif.Props.C78_more_rain"
   ],
   "note": ""
  },
  {
   "property": "C79",
   "status": "proved",
   "theorems": [
    "Verif.Props.C79_reference_level",
    "Verif.Props.C79_corrected_signals",
    "Verif.Props.C79_link",
    "Verif.Props.C79_network"
   ],
   "note": ""
  },
  {
   "property": "C80",
   "status": "proved",
   "theorems": [
    "Verif.Props.C80_schleiss_rounded"
   ],
   "note": ""
  },
  {
   "property": "C81",
   "status": "proved",
   "theorems": [
    "Verif.Props.C81_linear_monotone",
    "Verif.Props.C81_linear_between",
    "Verif.Props.C81_linear_between_binary64"
   ],
   "note": ""
  },
  {
   "property": "C82",
   "status": "proved",
   "theorems": [
    "Verif.Props.C82_constant_error",
    "Verif.Props.C82_constant_last_dry"
   ],
   "note": ""
  },
  {
   "property": "C83",
   "status": "proved",
   "theorems": [
    "Verif.Props.C83_constant_signal_attenuation"
   ],
   "note": ""
  },
  {
   "property": "C84",
   "status": "proved",
   "theorems": [
    "Verif.Props.C84_value",
    "Verif.Props.C84_history",
    "Verif.Props.C84_nan_points",
    "Verif.Props.C84_special"
   ],
   "note": ""
  },
  {
   "property": "C85",
   "status": "proved",
   "theorems": [
    "Verif.Props.C85_stale",
    "Verif.Props.C85_after_nan",
    "Verif.Props.C85_raise"
   ],
   "note": ""
  },
  {
   "property": "C86",
   "status": "proved",
   "theorems": [
    "Verif.Props.C86_shared",
    "Verif.Props.C86_unaffected"
   ],
   "note": ""
  },
  {
   "property": "C87",
   "status": "proved",
   "theorems": [
    "Verif.Props.C87_day_number",
    "Verif.Props.C87_leap_december",
    "Verif.Props.C87_leap_shift"
   ],
   "note": ""
  },
  {
   "property": "C88",
   "status": "proved",
   "theorems": [
    "Verif.Props.C88_changes_argument",
    "Verif.Props.C88_second_call"
   ],
   "note": ""
  },
  {
   "property": "C89",
   "status": "proved",
   "theorems": [
    "Verif.Props.C89_corners"
   ],
   "note": ""
  },
  {
   "property": "C90",
   "status": "proved",
   "theorems": [
    "Verif.Props.C90_pip",
    "Verif.Props.C90_refused",
    "Verif.Props.C90_cached",
    "Verif.Props.C90_device_failure",
    "Verif.Props.C90_install"
   ],
   "note": ""
  },
  {
   "property": "C91",
   "status": "proved",
   "theorems": [
    "Verif.Props.C91_transparent",
    "Verif.Props.C91_error",
    "Verif.Props.C91_count"
   ],
   "note": ""
  },
  {
   "property": "C92",
   "status": "proved",
   "theorems": [
    "Verif.Props.C92_rates_binary64"
   ],
   "note": ""
  },
  {
   "property": "C93",
   "status": "proved",
   "theorems": [
    "Verif.Props.C93_mcc_accuracy",
    "Verif.Props.C93_mcc_exceeds_one"
   ],
   "note": ""
  },
  {
   "property": "C94",
   "status": "proved",
   "theorems": [
    "Verif.Props.C94_delta_nonpos",
    "Verif.Props.C94_delta_negative"
   ],
   "note": ""
  },
  {
   "property": "C95",
   "status": "proved",
   "theorems": [
    "Verif.Props.C95_reference_between",
    "Verif.Props.C95_constant_signal"
   ],
   "note": ""
  },
  {
   "property": "C96",
   "status": "proved",
   "theorems": [
    "Verif.Props.C96_default_window",
    "Verif.Props.C96_spectrum",
    "Verif.Props.C96_missing",
    "Verif.Props.C96_short"
   ],
   "note": ""
  },
  {
   "property": "C97",
   "status": "proved",
   "theorems": [
    "Verif.Props.C97_local"
   ],
   "note": ""
  },
  {
   "property": "C98",
   "status": "proved",
   "theorems": [
    "Verif.Props.C98_scale",
    "Verif.Props.C98_reverse",
    "Verif.Props.C98_offset"
   ],
   "note": ""
  },
  {
   "property": "C99",
   "status": "proved",
   "theorems": [
    "Verif.Props.C99_steady",
    "Verif.Props.C99_constant"
   ],
   "note": ""
  },
  {
   "property": "C100",
   "status": "proved",
   "theorems": [
    "Verif.Props.C100_affine",
    "Verif.Props.C100_constant",
    "Verif.Props.C100_sigma"
   ],
   "note": ""
  },
  {
   "property": "C101",
   "status": "proved",
   "theorems": [
    "Verif.Props.C101_exact"
   ],
   "note": ""
  },
  {
   "property": "C102",
   "status": "proved",
   "theorems": [
    "Verif.Props.C102_order",
    "Verif.Props.C102_moved"
   ],
   "note": ""
  },
  {
   "property": "C103",
   "status": "proved",
   "theorems": [
    "Verif.Props.C103_total",
    "Verif.Props.C103_missing",
    "Verif.Props.C103_default",
    "Verif.Props.C103_clim",
    "Verif.Props.C103_single",
    "Verif.Props.C103_window"
   ],
   "note": ""
  },
  {
   "property": "C104",
   "status": "proved",
   "theorems": [
    "Verif.Props.C104_best"
   ],
   "note": ""
  },
  {
   "property": "C105",
   "status": "proved",
   "theorems": [
    "Verif.Props.C105_negative"
   ],
   "note": ""
  },
  {
   "property": "C106",
   "status": "proved",
   "theorems": [
    "Verif.Props.C106_spline_exists_unique",
    "Verif.Props.C106_any_method",
    "Verif.Props.C106_positive"
   ],
   "note": ""
  },
  {
   "property": "C107",
   "status": "proved",
   "theorems": [
    "Verif.Props.C107_a_increasing",
    "Verif.Props.C107_b_decreasing",
    "Verif.Props.C107_a_not_monotone"
   ],
   "note": ""
  },
  {
   "property": "C108",
   "status": "proved",
   "theorems": [
    "Verif.Props.C108_lipschitz"
   ],
   "note": ""
  },
  {
   "property": "C109",
   "status": "proved",
   "theorems": [
    "Verif.Props.C109_total",
    "Verif.Props.C109_monotone",
    "Verif.Props.C109_round_trip"
   ],
   "note": ""
  },
  {
   "property": "C110",
   "status": "proved",
   "theorems": [
    "Verif.Props.C110_attenuation_increasing",
    "Verif.Props.C110_rain_rate_decreasing",
    "Verif.Props.C110_not_above_limit"
   ],
   "note": ""
  },
  {
   "property": "C111",
   "status": "proved",
   "theorems": [
    "Verif.Props.C111_polarization",
    "Verif.Props.C111_rain_rate",
    "Verif.Props.C111_not_weak_rain"
   ],
   "note": ""
  },
  {
   "property": "C112",
   "status": "proved",
   "theorems": [
    "Verif.Props.C112_rain_rate",
    "Verif.Props.C112_monotone"
   ],
   "note": ""
  },
  {
   "property": "C113",
   "status": "proved",
   "theorems": [
    "Verif.Props.C113_dry_is_zero",
    "Verif.Props.C113_constant_signal"
   ],
   "note": ""
  },
  {
   "property": "C114",
   "status": "proved",
   "theorems": [
    "Verif.Props.C114_pastorek",
    "Verif.Props.C114_pastorek_outside",
    "Verif.Props.C114_min_max",
    "Verif.Props.C114_chain",
    "Verif.Props.C114_nearby",
    "Verif.Props.C114_parameters"
   ],
   "note": ""
  },
  {
   "property": "C115",
   "status": "proved",
   "theorems": [
    "Verif.Props.C115_equal_levels"
   ],
   "note": ""
  },
  {
   "property": "C116",
   "status": "proved",
   "theorems": [
    "Verif.Props.C116_nonneg",
    "Verif.Props.C116_overflow",
    "Verif.Props.C116_accuracy",
    "Verif.Props.C116_range"
   ],
   "note": ""
  },
  {
   "property": "C117",
   "status": "proved",
   "theorems": [
    "Verif.Props.C117_wet_dry",
    "Verif.Props.C117_rain",
    "Verif.Props.C117_all_pairs",
    "Verif.Props.C117_reshape",
    "Verif.Props.C117_transpose"
   ],
   "note": ""
  },
  {
   "property": "C118",
   "status": "proved",
   "theorems": [
    "Verif.Props.C118_range",
    "Verif.Props.C118_perfect",
    "Verif.Props.C118_accuracy"
   ],
   "note": ""
  },
  {
   "property": "C119",
   "status": "proved",
   "theorems": [
    "Verif.Props.C119_accuracy"
   ],
   "note": ""
  },
  {
   "property": "C120",
   "status": "proved",
   "theorems": [
    "Verif.Props.C120_schleiss_accuracy",
    "Verif.Props.C120_schleiss_doubles"
   ],
   "note": ""
  },
  {
   "property": "C121",
   "status": "proved",
   "theorems": [
    "Verif.Props.C121_nonneg",
    "Verif.Props.C121_accuracy",
    "Verif.Props.C121_steady",
    "Verif.Props.C121_doubles"
   ],
   "note": ""
  },
  {
   "property": "C122",
   "status": "proved",
   "theorems": [
    "Verif.Props.C122_offset",
    "Verif.Props.C122_common",
    "Verif.Props.C122_odd_offset_matters",
    "Verif.Props.C122_window_mono"
   ],
   "note": ""
  },
  {
   "property": "C123",
   "status": "proved",
   "theorems": [
    "Verif.Props.C123_map",
    "Verif.Props.C123_offset"
   ],
   "note": ""
  },
  {
   "property": "C124",
   "status": "proved",
   "theorems": [
    "Verif.Props.C124_nonneg",
    "Verif.Props.C124_not_wet",
    "Verif.Props.C124_monotone",
    "Verif.Props.C124_accuracy"
   ],
   "note": ""
  },
  {
   "property": "C125",
   "status": "proved",
   "theorems": [
    "Verif.Props.C125_baseline_constant",
    "Verif.Props.C125_baseline_linear",
    "Verif.Props.C125_waa",
    "Verif.Props.C125_attenuation",
    "Verif.Props.C125_rain"
   ],
   "note": ""
  },
  {
   "property": "C126",
   "status": "proved",
   "theorems": [
    "Verif.Props.C126_linear",
    "Verif.Props.C126_constant",
    "Verif.Props.C126_doubles"
   ],
   "note": ""
  },
  {
   "property": "C127",
   "status": "proved",
   "theorems": [
    "Verif.Props.C127_attenuation",
    "Verif.Props.C127_rain"
   ],
   "note": ""
  },
  {
   "property": "C128",
   "status": "proved",
   "theorems": [
    "Verif.Props.C128_constant",
    "Verif.Props.C128_linear",
    "Verif.Props.C128_rain",
    "Verif.Props.C128_min_max",
    "Verif.Props.C128_too_few_dry_steps",
    "Verif.Props.C128_min_max_gaps"
   ],
   "note": ""
  },
  {
   "property": "C129",
   "status": "proved",
   "theorems": [
    "Verif.Props.C129_wet",
    "Verif.Props.C129_F",
    "Verif.Props.C129_end_effect",
    "Verif.Props.C129_rain"
   ],
   "note": ""
  },
  {
   "property": "C130",
   "status": "proved",
   "theorems": [
    "Verif.Props.C130_baseline_constant",
    "Verif.Props.C130_baseline_linear",
    "Verif.Props.C130_attenuation",
    "Verif.Props.C130_rain_constant",
    "Verif.Props.C130_rain_linear",
    "Verif.Props.C130_rain_doubles",
    "Verif.Props.C130_nearby"
   ],
   "note": ""
  },
  {
   "property": "C131",
   "status": "proved",
   "theorems": [
    "Verif.Props.C131_wetdry_counts_add",
    "Verif.Props.C131_rain_pooled",
    "Verif.Props.C131_pearson_not_pooled",
    "Verif.Props.C131_rain_exchange",
    "Verif.Props.C131_rain_units"
   ],
   "note": ""
  },
  {
   "property": "C132",
   "status": "proved",
   "theorems": [
    "Verif.Props.C132_pastorek",
    "Verif.Props.C132_pastorek_rain",
    "Verif.Props.C132_leijnse"
   ],
   "note": ""
  },
  {
   "property": "C133",
   "status": "proved",
   "theorems": [
    "Verif.Props.C133_determined",
    "Verif.Props.C133_order",
    "Verif.Props.C133_isometry",
    "Verif.Props.C133_remote",
    "Verif.Props.C133_linear",
    "Verif.Props.C133_difference",
    "Verif.Props.C133_near",
    "Verif.Props.C133_tie"
   ],
   "note": ""
  },
  {
   "property": "C134",
   "status": "proved",
   "theorems": [
    "Verif.Props.C134_resample",
    "Verif.Props.C134_aggregate",
    "Verif.Props.C134_crop",
    "Verif.Props.C134_lost_group",
    "Verif.Props.C134_mean"
   ],
   "note": ""
  },
  {
   "property": "C135",
   "status": "proved",
   "theorems": [
    "Verif.Props.C135_pieces",
    "Verif.Props.C135_local",
    "Verif.Props.C135_levels",
    "Verif.Props.C135_cut"
   ],
   "note": ""
  },
  {
   "property": "C136",
   "status": "proved",
   "theorems": [
    "Verif.Props.C136_field",
    "Verif.Props.C136_rain_map",
    "Verif.Props.C136_uniform"
   ],
   "note": ""
  },
  {
   "property": "C137",
   "status": "proved",
   "theorems": [
    "Verif.Props.C137_rain_constant",
    "Verif.Props.C137_rain_linear",
    "Verif.Props.C137_noise"
   ],
   "note": ""
  },
  {
   "property": "C138",
   "status": "proved",
   "theorems": [
    "Verif.Props.C138_mlp_online_pieces",
    "Verif.Props.C138_mlp_offline_pieces",
    "Verif.Props.C138_mlp_offset",
    "Verif.Props.C138_cnn_pieces",
    "Verif.Props.C138_cnn_links",
    "Verif.Props.C138_tf_units",
    "Verif.Props.C138_tf_not_local"
   ],
   "note": ""
  },
  {
   "property": "C139",
   "status": "proved",
   "theorems": [
    "Verif.Props.C139_attenuation",
    "Verif.Props.C139_rounded_levels",
    "Verif.Props.C139_sharp",
    "Verif.Props.C139_rain",
    "Verif.Props.C139_power_control"
   ],
   "note": ""
  },
  {
   "property": "C140",
   "status": "proved",
   "theorems": [
    "Verif.Props.C140_flags",
    "Verif.Props.C140_rain"
   ],
   "note": ""
  },
  {
   "property": "C141",
   "status": "proved",
   "theorems": [
    "Verif.Props.C141_baseline_constant",
    "Verif.Props.C141_waa_schleiss",
    "Verif.Props.C141_rain_rate",
    "Verif.Props.C141_rain_rate_ab",
    "Verif.Props.C141_waa_leijnse",
    "Verif.Props.C141_waa_pastorek",
    "Verif.Props.C141_nearby_rain",
    "Verif.Props.C141_defaults_baseline",
    "Verif.Props.C141_defaults_schleiss",
    "Verif.Props.C141_defaults_leijnse",
    "Verif.Props.C141_defaults_pastorek",
    "Verif.Props.C141_defaults_rain",
    "Verif.Props.C141_defaults_nearby",
    "Verif.Props.C141_blackout",
    "Verif.Props.C141_succeeds_baseline",
    "Verif.Props.C141_succeeds_schleiss",
    "Verif.Props.C141_succeeds_rain",
    "Verif.Props.C141_succeeds_leijnse",
    "Verif.Props.C141_succeeds_pastorek",
    "Verif.Props.C141_succeeds_nearby"
   ],
   "note": ""
  },
  {
   "property": "C142",
   "status": "proved",
   "theorems": [
    "Verif.Props.C142_channels",
    "Verif.Props.C142_succeeds",
    "Verif.Props.C142_clip_not_required",
    "Verif.Props.C142_rain"
   ],
   "note": ""
  },
  {
   "property": "C143",
   "status": "proved",
   "theorems": [
    "Verif.Props.C143_symmetric",
    "Verif.Props.C143_same_point",
    "Verif.Props.C143_range",
    "Verif.Props.C143_matrices"
   ],
   "note": ""
  },
  {
   "property": "C144",
   "status": "proved",
   "theorems": [
    "Verif.Props.C144_accuracy",
    "Verif.Props.C144_matrices",
    "Verif.Props.C144_neighbours"
   ],
   "note": ""
  },
  {
   "property": "C145",
   "status": "proved",
   "theorems": [
    "Verif.Props.C145_decisions",
    "Verif.Props.C145_doubles",
    "Verif.Props.C145_levels"
   ],
   "note": ""
  },
  {
   "property": "C146",
   "status": "proved",
   "theorems": [
    "Verif.Props.C146_mismatch",
    "Verif.Props.C146_call",
    "Verif.Props.C146_call_succeeds",
    "Verif.Props.C146_process",
    "Verif.Props.C146_process_succeeds",
    "Verif.Props.C146_dataset",
    "Verif.Props.C146_process_mismatch",
    "Verif.Props.C146_sub_labels",
    "Verif.Props.C146_sub",
    "Verif.Props.C146_sub_succeeds"
   ],
   "note": ""
  },
  {
   "property": "C147",
   "status": "proved",
   "theorems": [
    "Verif.Props.C147_levels",
    "Verif.Props.C147_doubles",
    "Verif.Props.C147_level_errors"
   ],
   "note": ""
  },
  {
   "property": "C148",
   "status": "proved",
   "theorems": [
    "Verif.Props.C148_errors",
    "Verif.Props.C148_recovery"
   ],
   "note": ""
  },
  {
   "property": "C149",
   "status": "proved",
   "theorems": [
    "Verif.Props.C149_accuracy",
    "Verif.Props.C149_chain"
   ],
   "note": ""
  },
  {
   "property": "C150",
   "status": "proved",
   "theorems": [
    "Verif.Props.C150_wetdry",
    "Verif.Props.C150_wetdry_hourly",
    "Verif.Props.C150_reference",
    "Verif.Props.C150_mlp"
   ],
   "note": ""
  },
  {
   "property": "C151",
   "status": "proved",
   "theorems": [
    "Verif.Props.C151_distance",
    "Verif.Props.C151_nothing",
    "Verif.Props.C151_monotone",
    "Verif.Props.C151_not_exact"
   ],
   "note": ""
  },
  {
   "property": "C152",
   "status": "proved",
   "theorems": [
    "Verif.Props.C152_whole_seconds",
    "Verif.Props.C152_limit",
    "Verif.Props.C152_error",
    "Verif.Props.C152_missing",
    "Verif.Props.C152_order",
    "Verif.Props.C152_collision",
    "Verif.Props.C152_frequency",
    "Verif.Props.C152_file"
   ],
   "note": ""
  },
  {
   "property": "C153",
   "status": "proved",
   "theorems": [
    "Verif.Props.C153_errors",
    "Verif.Props.C153_rates",
    "Verif.Props.C153_perfect",
    "Verif.Props.C153_sharp",
    "Verif.Props.C153_dataset"
   ],
   "note": ""
  },
  {
   "property": "C154",
   "status": "proved",
   "theorems": [
    "Verif.Props.C154_range",
    "Verif.Props.C154_accuracy",
    "Verif.Props.C154_cancellation"
   ],
   "note": ""
  },
  {
   "property": "C155",
   "status": "proved",
   "theorems": [
    "Verif.Props.C155_value",
    "Verif.Props.C155_detect",
    "Verif.Props.C155_monotone"
   ],
   "note": ""
  },
  {
   "property": "C156",
   "status": "proved",
   "theorems": [
    "Verif.Props.C156_attenuation",
    "Verif.Props.C156_rain"
   ],
   "note": ""
  },
  {
   "property": "C157",
   "status": "proved",
   "theorems": [
    "Verif.Props.C157_constant",
    "Verif.Props.C157_linear"
   ],
   "note": ""
  },
  {
   "property": "C158",
   "status": "proved",
   "theorems": [
    "Verif.Props.C158_field",
    "Verif.Props.C158_rain_map"
   ],
   "note": ""
  },
  {
   "property": "C159",
   "status": "proved",
   "theorems": [
    "Verif.Props.C159_raises",
    "Verif.Props.C159_otherwise",
    "Verif.Props.C159_generated",
    "Verif.Props.C159_history"
   ],
   "note": ""
  },
  {
   "property": "C160",
   "status": "proved",
   "theorems": [
    "Verif.Props.C160_results",
    "Verif.Props.C160_unknown",
    "Verif.Props.C160_rates"
   ],
   "note": ""
  },
  {
   "property": "C161",
   "status": "proved",
   "theorems": [
    "Verif.Props.C161_pipeline",
    "Verif.Props.C161_rounding",
    "Verif.Props.C161_probability"
   ],
   "note": ""
  },
  {
   "property": "C162",
   "status": "proved",
   "theorems": [
    "Verif.Props.C162_attenuation",
    "Verif.Props.C162_rain",
    "Verif.Props.C162_false_alarms",
    "Verif.Props.C162_false_alarms_linear",
    "Verif.Props.C162_missed_start",
    "Verif.Props.C162_doubles"
   ],
   "note": ""
  },
  {
   "property": "C163",
   "status": "proved",
   "theorems": [
    "Verif.Props.C163_accuracy",
    "Verif.Props.C163_itu",
    "Verif.Props.C163_grid",
    "Verif.Props.C163_range"
   ],
   "note": ""
  },
  {
   "property": "C164",
   "status": "proved",
   "theorems": [
    "Verif.Props.C164_rates",
    "Verif.Props.C164_last_dry",
    "Verif.Props.C164_below_raises",
    "Verif.Props.C164_constant_level_raises",
    "Verif.Props.C164_constant",
    "Verif.Props.C164_linear"
   ],
   "note": ""
  },
  {
   "property": "C165",
   "status": "proved",
   "theorems": [
    "Verif.Props.C165_constant",
    "Verif.Props.C165_linear",
    "Verif.Props.C165_aggregate"
   ],
   "note": ""
  },
  {
   "property": "C166",
   "status": "proved",
   "theorems": [
    "Verif.Props.C166_baseline",
    "Verif.Props.C166_gaps",
    "Verif.Props.C166_baseline_linear",
    "Verif.Props.C166_gaps_linear"
   ],
   "note": ""
  },
  {
   "property": "C167",
   "status": "proved",
   "theorems": [
    "Verif.Props.C167_constant",
    "Verif.Props.C167_linear"
   ],
   "note": ""
  },
  {
   "property": "C168",
   "status": "proved",
   "theorems": [
    "Verif.Props.C168_low",
    "Verif.Props.C168_constant",
    "Verif.Props.C168_linear"
   ],
   "note": ""
  },
  {
   "property": "C169",
   "status": "proved",
   "theorems": [
    "Verif.Props.C169_low",
    "Verif.Props.C169_constant",
    "Verif.Props.C169_linear"
   ],
   "note": ""
  },
  {
   "property": "C170",
   "status": "proved",
   "theorems": [
    "Verif.Props.C170_F",
    "Verif.Props.C170_rates"
   ],
   "note": ""
  },
  {
   "property": "C171",
   "status": "proved",
   "theorems": [
    "Verif.Props.C171_added",
    "Verif.Props.C171_in_use",
    "Verif.Props.C171_again"
   ],
   "note": ""
  },
  {
   "property": "C172",
   "status": "proved",
   "theorems": [
    "Verif.Props.C172_map",
    "Verif.Props.C172_field",
    "Verif.Props.C172_absent"
   ],
   "note": ""
  },
  {
   "property": "C173",
   "status": "proved",
   "theorems": [
    "Verif.Props.C173_cell"
   ],
   "note": ""
  },
  {
   "property": "C174",
   "status": "proved",
   "theorems": [
    "Verif.Props.C174_gaps",
    "Verif.Props.C174_all"
   ],
   "note": ""
  },
  {
   "property": "C175",
   "status": "proved",
   "theorems": [
    "Verif.Props.C175_flag",
    "Verif.Props.C175_jump",
    "Verif.Props.C175_steady",
    "Verif.Props.C175_short",
    "Verif.Props.C175_rain",
    "Verif.Props.C175_events",
    "Verif.Props.C175_missed"
   ],
   "note": ""
  },
  {
   "property": "C176",
   "status": "proved",
   "theorems": [
    "Verif.Props.C176_exact",
    "Verif.Props.C176_flags",
    "Verif.Props.C176_doubles"
   ],
   "note": ""
  },
  {
   "property": "C177",
   "status": "proved",
   "theorems": [
    "Verif.Props.C177_fill",
    "Verif.Props.C177_defaults",
    "Verif.Props.C177_error",
    "Verif.Props.C177_levels",
    "Verif.Props.C177_rain"
   ],
   "note": ""
  },
  {
   "property": "C178",
   "status": "proved",
   "theorems": [
    "Verif.Props.C178_hours",
    "Verif.Props.C178_amount",
    "Verif.Props.C178_missing",
    "Verif.Props.C178_dead",
    "Verif.Props.C178_map",
    "Verif.Props.C178_filter",
    "Verif.Props.C178_hole",
    "Verif.Props.C178_error"
   ],
   "note": ""
  },
  {
   "property": "C179",
   "status": "proved",
   "theorems": [
    "Verif.Props.C179_levels",
    "Verif.Props.C179_rain"
   ],
   "note": ""
  },
  {
   "property": "C180",
   "status": "proved",
   "theorems": [
    "Verif.Props.C180_same",
    "Verif.Props.C180_more",
    "Verif.Props.C180_exact",
    "Verif.Props.C180_gaps",
    "Verif.Props.C180_lost"
   ],
   "note": ""
  }
 ]
}