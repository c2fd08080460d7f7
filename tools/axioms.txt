Verif.Props.C01_constant_dry: propext, Classical.choice, Quot.sound
Verif.Props.C02_constant_wet: propext, Classical.choice, Quot.sound
Verif.Props.C02_constant_wet_from_start: propext, Classical.choice, Quot.sound
Verif.Props.C02_constant_mean: propext, Classical.choice, Quot.sound
Verif.Props.C02_constant_last_dry: propext, Classical.choice, Quot.sound
Verif.Props.C02_constant_no_average_all_wet: propext, Quot.sound
Verif.Props.C03_constant_causal: propext, Classical.choice, Quot.sound
Verif.Props.C03_constant_range: propext, Classical.choice, Quot.sound
Verif.Props.C04_nan_flag_is_wet: propext, Classical.choice, Quot.sound
Verif.Props.C04_no_nan_from_flags: propext, Classical.choice, Quot.sound
Verif.Props.C04_docstring_false: propext, Classical.choice, Quot.sound
Verif.Props.C05_constant_affine: propext, Classical.choice, Quot.sound
Verif.Props.C05_attenuation_offset_invariant: propext, Classical.choice, Quot.sound
Verif.Props.C06_linear_interpolates: propext, Classical.choice, Quot.sound
Verif.Props.C07_ignore_nan_is_ffill: propext, Classical.choice, Quot.sound
Verif.Props.C08_linear_characterisation: propext, Classical.choice, Quot.sound
Verif.Props.C08_nan_event_is_nan: propext, Classical.choice, Quot.sound
Verif.Props.C08_other_events_unaffected: propext, Classical.choice, Quot.sound
Verif.Props.C09_linear_range: propext, Classical.choice, Quot.sound
Verif.Props.C09_linear_reversal: propext, Classical.choice, Quot.sound
Verif.Props.C10_mask_characterisation: propext, Classical.choice, Quot.sound
Verif.Props.C10_mask_only_nan: propext, Classical.choice, Quot.sound
Verif.Props.C11_forward_gap: propext, Classical.choice, Quot.sound
Verif.Props.C12_two_sided_reversal: propext, Classical.choice, Quot.sound
Verif.Props.C12_two_sided_gap: propext, Classical.choice, Quot.sound
Verif.Props.C12_threshold_monotone: propext, Classical.choice, Quot.sound
Verif.Props.C13_schleiss_bounds: propext, Classical.choice, Quot.sound
Verif.Props.C13_schleiss_tau_zero: propext, Classical.choice, Quot.sound
Verif.Props.C13_schleiss_nonneg: propext, Classical.choice, Quot.sound
Verif.Props.C14_schleiss_ramp: propext, Classical.choice, Quot.sound
Verif.Props.C14_schleiss_ramp_monotone: propext, Classical.choice, Quot.sound
Verif.Props.C14_schleiss_dry: propext, Classical.choice, Quot.sound
Verif.Props.C15_parameters: propext, Classical.choice, Quot.sound
Verif.Props.C15_pastorek: propext, Classical.choice, Quot.sound
Verif.Props.C15_scalar_raises: propext, Classical.choice, Quot.sound
Verif.Props.C16_from_A_obs: propext, Classical.choice, Quot.sound
Verif.Props.C17_no_film: propext, Classical.choice, Quot.sound
Verif.Props.C17_no_jump: propext, Classical.choice, Quot.sound
Verif.Props.C17_function: propext, Classical.choice, Quot.sound
Verif.Props.C18_relaxation: propext, Classical.choice, Quot.sound
Verif.Props.C18_dispersion: propext, Classical.choice, Quot.sound
Verif.Props.C18_eps_water: propext, Classical.choice, Quot.sound
Verif.Props.C18_eps_water_limit: propext, Classical.choice, Quot.sound
Verif.Props.C19_rain_rate: propext, Classical.choice, Quot.sound
Verif.Props.C19_rain_rate_range: propext, Classical.choice, Quot.sound
Verif.Props.C20_monotone_in_A: propext, Classical.choice, Quot.sound
Verif.Props.C20_antitone_in_a_and_L: propext, Classical.choice, Quot.sound
Verif.Props.C20_depends_on_ratio: propext, Classical.choice, Quot.sound
Verif.Props.C21_round_trip: propext, Classical.choice, Quot.sound
Verif.Props.C21_round_trip_back: propext, Classical.choice, Quot.sound
Verif.Props.C22_calc_R_arguments: propext, Classical.choice, Quot.sound
Verif.Props.C22_calc_R_from_frequency: propext, Classical.choice, Quot.sound
Verif.Props.C22_nearby_arguments: propext, Classical.choice, Quot.sound
Verif.Props.C22_nearby_from_frequency: propext, Classical.choice, Quot.sound
Verif.Props.C23_array_parameters: propext, Classical.choice, Quot.sound
Verif.Props.C23_array_values: propext, Classical.choice, Quot.sound
Verif.Props.C24_min_max: propext, Classical.choice, Quot.sound
Verif.Props.C24_min_max_range: propext, Classical.choice, Quot.sound
Verif.Props.C25_accepts_iff: propext, Classical.choice, Quot.sound
Verif.Props.C25_entries: propext, Classical.choice, Quot.sound
Verif.Props.C25_tabulated: propext, Classical.choice, Quot.sound
Verif.Props.C25_string_polarization: propext, Classical.choice, Quot.sound
Verif.Props.C26_tables_well_formed: propext, Classical.choice, Quot.sound
Verif.Props.C27_minmax_nonneg: propext, Classical.choice, Quot.sound
Verif.Props.C27_rint_nearest: propext, Classical.choice, Quot.sound
Verif.Props.C27_minmax_value: propext, Classical.choice, Quot.sound
Verif.Props.C28_agrees_with_python: propext, Classical.choice, Quot.sound
Verif.Props.C28_silently_accepted: propext, Classical.choice, Quot.sound
Verif.Props.C28_missing_argument: propext, Quot.sound
Verif.Props.C29_slicewise: propext, Classical.choice, Quot.sound
Verif.Props.C29_independent: propext, Classical.choice, Quot.sound
Verif.Props.C29_succeeds: propext, Classical.choice, Quot.sound
Verif.Props.C29_no_time: propext, Classical.choice, Quot.sound
Verif.Props.C29_two_outputs: propext, Classical.choice, Quot.sound
Verif.Props.C30_metric: propext, Classical.choice, Quot.sound
Verif.Props.C30_meridian: propext, Classical.choice, Quot.sound
Verif.Props.C31_entries: propext, Classical.choice, Quot.sound
Verif.Props.C31_structure: propext, Classical.choice, Quot.sound
Verif.Props.C31_own_neighbour: propext, Classical.choice, Quot.sound
Verif.Props.C32_value: propext, Classical.choice, Quot.sound
Verif.Props.C32_nonpos: propext, Classical.choice, Quot.sound
Verif.Props.C32_local: propext, Classical.choice, Quot.sound
Verif.Props.C33_rule: propext, Classical.choice, Quot.sound
Verif.Props.C34_smear: propext, Classical.choice, Quot.sound
Verif.Props.C35_offsets: propext, Classical.choice, Quot.sound
Verif.Props.C35_permutation: propext, Classical.choice, Quot.sound
Verif.Props.C35_local: propext, Classical.choice, Quot.sound
Verif.Props.C36_median: propext, Classical.choice, Quot.sound
Verif.Props.C36_wet_ignored: propext, Classical.choice, Quot.sound
Verif.Props.C36_bounds: propext, Classical.choice, Quot.sound
Verif.Props.C37_levels: propext, Quot.sound
Verif.Props.C37_idempotent: propext, Quot.sound
Verif.Props.C38_mixture: propext, Classical.choice, Quot.sound
Verif.Props.C38_no_threshold: propext, Classical.choice, Quot.sound
Verif.Props.C38_F_length: propext, Quot.sound
Verif.Props.C39_no_rain_when_dry: propext, Classical.choice, Quot.sound
Verif.Props.C40_counts_are_counts: propext, Quot.sound
Verif.Props.C40_counts_partition: propext, Classical.choice, Quot.sound
Verif.Props.C40_length_mismatch: propext
Verif.Props.C41_rates: propext, Classical.choice, Quot.sound
Verif.Props.C42_mcc_range: propext, Classical.choice, Quot.sound
Verif.Props.C42_mcc_no_wet_predicted: propext, Classical.choice, Quot.sound
Verif.Props.C42_mcc_nan_iff: propext, Classical.choice, Quot.sound
Verif.Props.C42_mcc_formula: propext, Classical.choice, Quot.sound
Verif.Props.C42_mcc_one_iff: propext, Classical.choice, Quot.sound
Verif.Props.C42_mcc_symmetric: propext, Classical.choice, Quot.sound
Verif.Props.C42_mcc_not_symmetric: propext, Classical.choice, Quot.sound
Verif.Props.C43_rain_multiset: propext, Classical.choice, Quot.sound
Verif.Props.C43_rain_perm: propext, Classical.choice, Quot.sound
Verif.Props.C43_wetdry_multiset: propext, Quot.sound
Verif.Props.C43_wetdry_perm: propext, Quot.sound
Verif.Props.C44_values: propext, Classical.choice, Quot.sound
Verif.Props.C44_inequalities: propext, Classical.choice, Quot.sound
Verif.Props.C44_pearson: propext, Classical.choice, Quot.sound
Verif.Props.C44_counts: propext, Classical.choice, Quot.sound
Verif.Props.C45_rates: propext, Classical.choice, Quot.sound
Verif.Props.C45_precipitation_rates: propext, Classical.choice, Quot.sound
Verif.Props.C45_threshold_value_is_dry: propext, Classical.choice, Quot.sound
Verif.Props.C46_value: propext, Classical.choice, Quot.sound
Verif.Props.C46_bounds: propext, Classical.choice, Quot.sound
Verif.Props.C46_constant: propext, Classical.choice, Quot.sound
Verif.Props.C46_scale_free: propext, Classical.choice, Quot.sound
Verif.Props.C46_errors: propext, Classical.choice, Quot.sound
Verif.Props.C46_point: propext, Classical.choice, Quot.sound
Verif.Props.C47_transparent: propext, Classical.choice, Quot.sound
Verif.Props.C47_stale: propext, Classical.choice, Quot.sound
Verif.Props.C47_stale_witness: propext, Classical.choice, Quot.sound
Verif.Props.C48_history: propext, Classical.choice, Quot.sound
Verif.Props.C48_all_nan: propext, Classical.choice, Quot.sound
Verif.Props.C48_value: propext, Classical.choice, Quot.sound
Verif.Props.C49_generated: propext, Classical.choice, Quot.sound
Verif.Props.C49_given_or_error: propext, Quot.sound
Verif.Props.C49_points_inside: propext, Classical.choice, Quot.sound
Verif.Props.C49_calls: propext, Classical.choice, Quot.sound
Verif.Props.C49_calls_error: propext, Classical.choice, Quot.sound
Verif.Props.C50_positive: propext, Classical.choice, Quot.sound
Verif.Props.C50_bounds_one_hour: propext, Classical.choice, Quot.sound
Verif.Props.C50_season: propext, Classical.choice, Quot.sound
Verif.Props.C51_windows: propext, Classical.choice, Quot.sound
Verif.Props.C51_small_reflength: propext, Quot.sound
Verif.Props.C51_assertions: propext, Quot.sound
Verif.Props.C51_shared_target: propext, Classical.choice, Quot.sound
Verif.Props.C52_batches: propext, Classical.choice, Quot.sound
Verif.Props.C52_placement: propext, Classical.choice, Quot.sound
Verif.Props.C52_no_window: propext, Classical.choice, Quot.sound
Verif.Props.C53_store_wraps: propext, Classical.choice, Quot.sound
Verif.Props.C53_store_index_error: propext, Quot.sound
Verif.Props.C53_samples: propext, Classical.choice, Quot.sound
Verif.Props.C53_store: propext, Classical.choice, Quot.sound
Verif.Props.C53_length_mismatch: none
Verif.Props.C53_round_trip: propext, Classical.choice, Quot.sound
Verif.Props.C53_pipeline: propext, Classical.choice, Quot.sound
Verif.Props.C54_standardized: propext, Classical.choice, Quot.sound
Verif.Props.C54_affine_map: propext, Classical.choice, Quot.sound
Verif.Props.C54_affine_invariant: propext, Classical.choice, Quot.sound
Verif.Props.C54_global: propext, Classical.choice, Quot.sound
Verif.Props.C55_online: propext, Classical.choice, Quot.sound
Verif.Props.C55_causal: propext, Classical.choice, Quot.sound
Verif.Props.C55_errors: propext, Classical.choice, Quot.sound
Verif.Props.C55_offline: propext, Classical.choice, Quot.sound
Verif.Props.C55_offline_local: propext, Classical.choice, Quot.sound
Verif.Props.C56_threshold: propext, Quot.sound
Verif.Props.C56_padding: propext, Classical.choice, Quot.sound
Verif.Props.C56_scale: propext, Classical.choice, Quot.sound
Verif.Props.C56_computed: propext, Quot.sound
Verif.Props.C56_errors: propext, Quot.sound
Verif.Props.C56_mirror_error: propext, Quot.sound
Verif.Props.C56_dry_period_error: propext, Quot.sound
Verif.Props.C56_value: propext, Classical.choice, Quot.sound
Verif.Props.C56_no_reference: propext, Classical.choice, Quot.sound
Verif.Props.C56_size_error: propext, Quot.sound
Verif.Props.C56_frequency_error: propext, Classical.choice, Quot.sound
Verif.Props.C57_lowest: propext, Classical.choice, Quot.sound
Verif.Props.C57_errors: propext, Classical.choice, Quot.sound
Verif.Props.C57_first_window_all_dry: propext, Classical.choice, Quot.sound
Verif.Props.C58_last_download: propext, Classical.choice, Quot.sound
Verif.Props.C58_download: propext
Verif.Props.C58_once: propext, Quot.sound
Verif.Props.C58_separate: propext, Classical.choice, Quot.sound
Verif.Props.C58_truncated: propext, Quot.sound
Verif.Props.C58_truncated_get_model: propext, Classical.choice, Quot.sound
Verif.Props.C58_list_empty: propext, Classical.choice, Quot.sound
Verif.Props.C59_shared_entry: propext, Classical.choice, Quot.sound
Verif.Props.C59_independent: propext, Classical.choice, Quot.sound
Verif.Props.C59_key: propext, Classical.choice, Quot.sound
Verif.Props.C59_same_name_collision: propext, Classical.choice, Quot.sound
Verif.Props.C59_trailing_slash: propext, Classical.choice, Quot.sound
Verif.Props.C59_directory: propext, Classical.choice, Quot.sound
Verif.Props.C60_get_model: propext, Classical.choice, Quot.sound
Verif.Props.C60_resolve: propext, Classical.choice, Quot.sound
Verif.Props.C61_groups: propext, Classical.choice, Quot.sound
Verif.Props.C61_sum: propext, Classical.choice, Quot.sound
Verif.Props.C61_errors: propext, Quot.sound
Verif.Props.C61_duplicates: propext, Classical.choice, Quot.sound
Verif.Props.C61_zone: propext, Classical.choice, Quot.sound
Verif.Props.C62_full_grid: propext, Classical.choice, Quot.sound
Verif.Props.C62_weighted_sum: propext, Classical.choice, Quot.sound
Verif.Props.C62_no_weight: propext, Classical.choice, Quot.sound
Verif.Props.C63_mask: propext, Quot.sound
Verif.Props.C63_short_ygrid: propext, Quot.sound
Verif.Props.C63_set: propext, Quot.sound
Verif.Props.C63_union: propext, Quot.sound
Verif.Props.C63_distance: propext, Classical.choice, Quot.sound
Verif.Props.C64_structure: propext, Classical.choice, Quot.sound
Verif.Props.C64_errors: propext, Classical.choice, Quot.sound
Verif.Props.C64_first_channel: propext, Classical.choice, Quot.sound
Verif.Props.C64_reads: propext, Classical.choice, Quot.sound
Verif.Props.C65_string_polarization_rejected: propext, Classical.choice, Quot.sound
Verif.Props.C66_leijnse_from_A_obs: propext, Classical.choice, Quot.sound
Verif.Props.C67_F_score: propext, Classical.choice, Quot.sound
Verif.Props.C68_positional: propext, Classical.choice, Quot.sound
Verif.Props.C69_aliased_query: propext, Classical.choice, Quot.sound
Verif.Props.C70_aliased_points: propext, Classical.choice, Quot.sound
Verif.Props.C71_multi_output: propext, Classical.choice, Quot.sound
Verif.Props.C72_id_coord_checked: propext, Classical.choice, Quot.sound
Verif.Props.C72_id_coord_unused: propext, Classical.choice, Quot.sound
Verif.Props.C72_missing_variable: propext, Classical.choice, Quot.sound
Verif.Props.C72_no_variables: propext, Classical.choice, Quot.sound
Verif.Props.C73_errors: propext, Quot.sound
Verif.Props.C73_resample: propext, Classical.choice, Quot.sound
Verif.Props.C74_rates: propext, Classical.choice, Quot.sound
Verif.Props.C75_transmission_loss: propext, Classical.choice, Quot.sound
Verif.Props.C76_nonneg_and_dry: propext, Classical.choice, Quot.sound
Verif.Props.C76_at_most_uncorrected: propext, Classical.choice, Quot.sound
Verif.Props.C77_offset: propext, Classical.choice, Quot.sound
Verif.Props.C77_causal: propext, Classical.choice, Quot.sound
Verif.Props.C78_negative_waa: propext, Classical.choice, Quot.sound
Verif.Props.C78_more_rain: propext, Classical.choice, Quot.sound
Verif.Props.C79_reference_level: propext, Classical.choice, Quot.sound
Verif.Props.C79_corrected_signals: propext, Classical.choice, Quot.sound
Verif.Props.C79_link: propext, Classical.choice, Quot.sound
Verif.Props.C79_network: propext, Classical.choice, Quot.sound
Verif.Props.C80_schleiss_rounded: propext, Classical.choice, Quot.sound
Verif.Props.C81_linear_monotone: propext, Classical.choice, Quot.sound
Verif.Props.C81_linear_between: propext, Classical.choice, Quot.sound
Verif.Props.C81_linear_between_binary64: propext, Classical.choice, Quot.sound
Verif.Props.C82_constant_error: propext, Classical.choice, Quot.sound
Verif.Props.C82_constant_last_dry: propext, Classical.choice, Quot.sound
Verif.Props.C83_constant_signal_attenuation: propext, Classical.choice, Quot.sound
Verif.Props.C84_value: propext, Quot.sound
Verif.Props.C84_history: propext, Quot.sound
Verif.Props.C84_nan_points: propext, Quot.sound
Verif.Props.C84_special: propext, Classical.choice, Quot.sound
Verif.Props.C85_stale: propext, Classical.choice, Quot.sound
Verif.Props.C85_after_nan: propext, Classical.choice, Quot.sound
Verif.Props.C85_raise: propext, Quot.sound
Verif.Props.C86_shared: propext, Classical.choice, Quot.sound
Verif.Props.C86_unaffected: propext, Classical.choice, Quot.sound
Verif.Props.C87_day_number: propext, Classical.choice, Quot.sound
Verif.Props.C87_leap_december: propext, Classical.choice, Quot.sound
Verif.Props.C87_leap_shift: propext, Classical.choice, Quot.sound
Verif.Props.C88_changes_argument: propext
Verif.Props.C88_second_call: propext
Verif.Props.C89_corners: propext, Classical.choice, Quot.sound
Verif.Props.C90_pip: propext, Classical.choice, Quot.sound
Verif.Props.C90_refused: propext
Verif.Props.C90_cached: propext
Verif.Props.C90_device_failure: propext
Verif.Props.C90_install: propext
Verif.Props.C91_transparent: propext
Verif.Props.C91_error: propext
Verif.Props.C91_count: propext
Verif.Props.C92_rates_binary64: propext, Classical.choice, Quot.sound
Verif.Props.C93_mcc_accuracy: propext, Classical.choice, Quot.sound
Verif.Props.C93_mcc_exceeds_one: propext, Classical.choice, Quot.sound
Verif.Props.C94_delta_nonpos: propext, Quot.sound
Verif.Props.C94_delta_negative: propext, Classical.choice, Quot.sound
Verif.Props.C95_reference_between: propext, Classical.choice, Quot.sound
Verif.Props.C95_constant_signal: propext, Classical.choice, Quot.sound
Verif.Props.C96_default_window: propext, Classical.choice, Quot.sound
Verif.Props.C96_spectrum: propext, Classical.choice, Quot.sound
Verif.Props.C96_missing: propext, Classical.choice, Quot.sound
Verif.Props.C96_short: propext, Classical.choice, Quot.sound
Verif.Props.C97_local: propext, Classical.choice, Quot.sound
Verif.Props.C98_scale: propext, Classical.choice, Quot.sound
Verif.Props.C98_reverse: propext, Classical.choice, Quot.sound
Verif.Props.C98_offset: propext, Classical.choice, Quot.sound
Verif.Props.C99_steady: propext, Classical.choice, Quot.sound
Verif.Props.C99_constant: propext, Classical.choice, Quot.sound
Verif.Props.C100_affine: propext, Classical.choice, Quot.sound
Verif.Props.C100_constant: propext, Classical.choice, Quot.sound
Verif.Props.C100_sigma: propext, Classical.choice, Quot.sound
Verif.Props.C101_exact: propext, Classical.choice, Quot.sound
Verif.Props.C102_order: propext, Classical.choice, Quot.sound
Verif.Props.C102_moved: propext, Classical.choice, Quot.sound
Verif.Props.C103_total: propext, Classical.choice, Quot.sound
Verif.Props.C103_missing: propext, Classical.choice, Quot.sound
Verif.Props.C103_default: propext, Classical.choice, Quot.sound
Verif.Props.C103_clim: propext, Classical.choice, Quot.sound
Verif.Props.C103_single: propext, Classical.choice, Quot.sound
Verif.Props.C103_window: propext, Classical.choice, Quot.sound
Verif.Props.C104_best: propext, Classical.choice, Quot.sound
Verif.Props.C105_negative: propext, Classical.choice, Quot.sound
Verif.Props.C106_spline_exists_unique: propext, Classical.choice, Quot.sound
Verif.Props.C106_any_method: propext, Classical.choice, Quot.sound
Verif.Props.C106_positive: propext, Classical.choice, Quot.sound
Verif.Props.C107_a_increasing: propext, Classical.choice, Quot.sound
Verif.Props.C107_b_decreasing: propext, Classical.choice, Quot.sound
Verif.Props.C107_a_not_monotone: propext, Classical.choice, Quot.sound
Verif.Props.C108_lipschitz: propext, Classical.choice, Quot.sound
Verif.Props.C109_total: propext, Classical.choice, Quot.sound
Verif.Props.C109_monotone: propext, Classical.choice, Quot.sound
Verif.Props.C109_round_trip: propext, Classical.choice, Quot.sound
Verif.Props.C110_attenuation_increasing: propext, Classical.choice, Quot.sound
Verif.Props.C110_rain_rate_decreasing: propext, Classical.choice, Quot.sound
Verif.Props.C110_not_above_limit: propext, Classical.choice, Quot.sound
Verif.Props.C111_polarization: propext, Classical.choice, Quot.sound
Verif.Props.C111_rain_rate: propext, Classical.choice, Quot.sound
Verif.Props.C111_not_weak_rain: propext, Classical.choice, Quot.sound
Verif.Props.C112_rain_rate: propext, Classical.choice, Quot.sound
Verif.Props.C112_monotone: propext, Classical.choice, Quot.sound
Verif.Props.C113_dry_is_zero: propext, Classical.choice, Quot.sound
Verif.Props.C113_constant_signal: propext, Classical.choice, Quot.sound
Verif.Props.C114_pastorek: propext, Classical.choice, Quot.sound
Verif.Props.C114_pastorek_outside: propext, Classical.choice, Quot.sound
Verif.Props.C114_min_max: propext, Classical.choice, Quot.sound
Verif.Props.C114_chain: propext, Classical.choice, Quot.sound
Verif.Props.C114_nearby: propext, Classical.choice, Quot.sound
Verif.Props.C114_parameters: propext, Classical.choice, Quot.sound
Verif.Props.C115_equal_levels: propext, Classical.choice, Quot.sound
Verif.Props.C116_nonneg: propext, Classical.choice, Quot.sound
Verif.Props.C116_overflow: propext, Quot.sound
Verif.Props.C116_accuracy: propext, Classical.choice, Quot.sound
Verif.Props.C116_range: propext, Classical.choice, Quot.sound
Verif.Props.C117_wet_dry: propext
Verif.Props.C117_rain: propext
Verif.Props.C117_all_pairs: propext, Classical.choice, Quot.sound
Verif.Props.C117_reshape: propext
Verif.Props.C117_transpose: propext, Classical.choice, Quot.sound
Verif.Props.C118_range: propext, Classical.choice, Quot.sound
Verif.Props.C118_perfect: propext, Classical.choice, Quot.sound
Verif.Props.C118_accuracy: propext, Classical.choice, Quot.sound
Verif.Props.C119_accuracy: propext, Classical.choice, Quot.sound
Verif.Props.C120_schleiss_accuracy: propext, Classical.choice, Quot.sound
Verif.Props.C120_schleiss_doubles: propext, Classical.choice, Quot.sound
Verif.Props.C121_nonneg: propext, Classical.choice, Quot.sound
Verif.Props.C121_accuracy: propext, Classical.choice, Quot.sound
Verif.Props.C121_steady: propext, Classical.choice, Quot.sound
Verif.Props.C121_doubles: propext, Classical.choice, Quot.sound
Verif.Props.C122_offset: propext, Classical.choice, Quot.sound
Verif.Props.C122_common: propext, Quot.sound
Verif.Props.C122_odd_offset_matters: propext, Classical.choice, Quot.sound
Verif.Props.C122_window_mono: propext, Classical.choice, Quot.sound
Verif.Props.C123_map: propext, Classical.choice, Quot.sound
Verif.Props.C123_offset: propext, Classical.choice, Quot.sound
Verif.Props.C124_nonneg: propext, Classical.choice, Quot.sound
Verif.Props.C124_not_wet: propext, Classical.choice, Quot.sound
Verif.Props.C124_monotone: propext, Classical.choice, Quot.sound
Verif.Props.C124_accuracy: propext, Classical.choice, Quot.sound
Verif.Props.C125_baseline_constant: propext, Classical.choice, Quot.sound
Verif.Props.C125_baseline_linear: propext, Classical.choice, Quot.sound
Verif.Props.C125_waa: propext, Classical.choice, Quot.sound
Verif.Props.C125_attenuation: propext, Classical.choice, Quot.sound
Verif.Props.C125_rain: propext, Classical.choice, Quot.sound
Verif.Props.C126_linear: propext, Classical.choice, Quot.sound
Verif.Props.C126_constant: propext, Classical.choice, Quot.sound
Verif.Props.C126_doubles: propext, Classical.choice, Quot.sound
Verif.Props.C127_attenuation: propext, Classical.choice, Quot.sound
Verif.Props.C127_rain: propext, Classical.choice, Quot.sound
Verif.Props.C128_constant: propext, Classical.choice, Quot.sound
Verif.Props.C128_linear: propext, Classical.choice, Quot.sound
Verif.Props.C128_rain: propext, Classical.choice, Quot.sound
Verif.Props.C128_min_max: propext, Classical.choice, Quot.sound
Verif.Props.C128_too_few_dry_steps: propext, Classical.choice, Quot.sound
Verif.Props.C128_min_max_gaps: propext, Classical.choice, Quot.sound
Verif.Props.C129_wet: propext, Classical.choice, Quot.sound
Verif.Props.C129_F: propext, Classical.choice, Quot.sound
Verif.Props.C129_end_effect: propext, Classical.choice, Quot.sound
Verif.Props.C129_rain: propext, Classical.choice, Quot.sound
Verif.Props.C130_baseline_constant: propext, Classical.choice, Quot.sound
Verif.Props.C130_baseline_linear: propext, Classical.choice, Quot.sound
Verif.Props.C130_attenuation: propext, Classical.choice, Quot.sound
Verif.Props.C130_rain_constant: propext, Classical.choice, Quot.sound
Verif.Props.C130_rain_linear: propext, Classical.choice, Quot.sound
Verif.Props.C130_rain_doubles: propext, Classical.choice, Quot.sound
Verif.Props.C130_nearby: propext, Classical.choice, Quot.sound
Verif.Props.C131_wetdry_counts_add: propext, Quot.sound
Verif.Props.C131_rain_pooled: propext, Classical.choice, Quot.sound
Verif.Props.C131_pearson_not_pooled: propext, Classical.choice, Quot.sound
Verif.Props.C131_rain_exchange: propext, Classical.choice, Quot.sound
Verif.Props.C131_rain_units: propext, Classical.choice, Quot.sound
Verif.Props.C132_pastorek: propext, Classical.choice, Quot.sound
Verif.Props.C132_pastorek_rain: propext, Classical.choice, Quot.sound
Verif.Props.C132_leijnse: propext, Classical.choice, Quot.sound
Verif.Props.C133_determined: propext, Classical.choice, Quot.sound
Verif.Props.C133_order: propext, Classical.choice, Quot.sound
Verif.Props.C133_isometry: propext, Classical.choice, Quot.sound
Verif.Props.C133_remote: propext, Classical.choice, Quot.sound
Verif.Props.C133_linear: propext, Classical.choice, Quot.sound
Verif.Props.C133_difference: propext, Classical.choice, Quot.sound
Verif.Props.C133_near: propext, Classical.choice, Quot.sound
Verif.Props.C133_tie: propext, Classical.choice, Quot.sound
Verif.Props.C134_resample: propext, Classical.choice, Quot.sound
Verif.Props.C134_aggregate: propext, Classical.choice, Quot.sound
Verif.Props.C134_crop: propext, Quot.sound
Verif.Props.C134_lost_group: propext, Quot.sound
Verif.Props.C134_mean: propext, Classical.choice, Quot.sound
Verif.Props.C135_pieces: propext, Classical.choice, Quot.sound
Verif.Props.C135_local: propext, Classical.choice, Quot.sound
Verif.Props.C135_levels: propext, Classical.choice, Quot.sound
Verif.Props.C135_cut: propext, Classical.choice, Quot.sound
Verif.Props.C136_field: propext, Classical.choice, Quot.sound
Verif.Props.C136_rain_map: propext, Classical.choice, Quot.sound
Verif.Props.C136_uniform: propext, Classical.choice, Quot.sound
Verif.Props.C137_rain_constant: propext, Classical.choice, Quot.sound
Verif.Props.C137_rain_linear: propext, Classical.choice, Quot.sound
Verif.Props.C137_noise: propext, Classical.choice, Quot.sound
Verif.Props.C138_mlp_online_pieces: propext, Classical.choice, Quot.sound
Verif.Props.C138_mlp_offline_pieces: propext, Classical.choice, Quot.sound
Verif.Props.C138_mlp_offset: propext, Classical.choice, Quot.sound
Verif.Props.C138_cnn_pieces: propext, Classical.choice, Quot.sound
Verif.Props.C138_cnn_links: propext, Classical.choice, Quot.sound
Verif.Props.C138_tf_units: propext, Classical.choice, Quot.sound
Verif.Props.C138_tf_not_local: propext, Classical.choice, Quot.sound
Verif.Props.C139_attenuation: propext, Classical.choice, Quot.sound
Verif.Props.C139_rounded_levels: propext, Classical.choice, Quot.sound
Verif.Props.C139_sharp: propext, Classical.choice, Quot.sound
Verif.Props.C139_rain: propext, Classical.choice, Quot.sound
Verif.Props.C139_power_control: propext, Classical.choice, Quot.sound
Verif.Props.C140_flags: propext, Classical.choice, Quot.sound
Verif.Props.C140_rain: propext, Classical.choice, Quot.sound
Verif.Props.C141_baseline_constant: propext, Classical.choice, Quot.sound
Verif.Props.C141_waa_schleiss: propext, Classical.choice, Quot.sound
Verif.Props.C141_rain_rate: propext, Classical.choice, Quot.sound
Verif.Props.C141_rain_rate_ab: propext, Classical.choice, Quot.sound
Verif.Props.C141_waa_leijnse: propext, Classical.choice, Quot.sound
Verif.Props.C141_waa_pastorek: propext, Classical.choice, Quot.sound
Verif.Props.C141_nearby_rain: propext, Classical.choice, Quot.sound
Verif.Props.C141_defaults_baseline: propext, Classical.choice, Quot.sound
Verif.Props.C141_defaults_schleiss: propext, Classical.choice, Quot.sound
Verif.Props.C141_defaults_leijnse: propext, Classical.choice, Quot.sound
Verif.Props.C141_defaults_pastorek: propext, Classical.choice, Quot.sound
Verif.Props.C141_defaults_rain: propext, Classical.choice, Quot.sound
Verif.Props.C141_defaults_nearby: propext, Classical.choice, Quot.sound
Verif.Props.C141_blackout: propext, Classical.choice, Quot.sound
Verif.Props.C141_succeeds_baseline: propext, Classical.choice, Quot.sound
Verif.Props.C141_succeeds_schleiss: propext, Classical.choice, Quot.sound
Verif.Props.C141_succeeds_rain: propext, Classical.choice, Quot.sound
Verif.Props.C141_succeeds_leijnse: propext, Classical.choice, Quot.sound
Verif.Props.C141_succeeds_pastorek: propext, Classical.choice, Quot.sound
Verif.Props.C141_succeeds_nearby: propext, Classical.choice, Quot.sound
Verif.Props.C142_channels: propext, Classical.choice, Quot.sound
Verif.Props.C142_succeeds: propext, Classical.choice, Quot.sound
Verif.Props.C142_clip_not_required: propext, Classical.choice, Quot.sound
Verif.Props.C142_rain: propext, Classical.choice, Quot.sound
Verif.Props.C143_symmetric: propext, Classical.choice, Quot.sound
Verif.Props.C143_same_point: propext, Classical.choice, Quot.sound
Verif.Props.C143_range: propext, Classical.choice, Quot.sound
Verif.Props.C143_matrices: propext, Classical.choice, Quot.sound
Verif.Props.C144_accuracy: propext, Classical.choice, Quot.sound
Verif.Props.C144_matrices: propext, Classical.choice, Quot.sound
Verif.Props.C144_neighbours: propext, Classical.choice, Quot.sound
Verif.Props.C145_decisions: propext, Classical.choice, Quot.sound
Verif.Props.C145_doubles: propext, Classical.choice, Quot.sound
Verif.Props.C145_levels: propext, Classical.choice, Quot.sound
Verif.Props.C146_mismatch: propext, Classical.choice, Quot.sound
Verif.Props.C146_call: propext, Classical.choice, Quot.sound
Verif.Props.C146_call_succeeds: propext, Classical.choice, Quot.sound
Verif.Props.C146_process: propext, Classical.choice, Quot.sound
Verif.Props.C146_process_succeeds: propext, Classical.choice, Quot.sound
Verif.Props.C146_dataset: propext, Classical.choice, Quot.sound
Verif.Props.C146_process_mismatch: propext, Classical.choice, Quot.sound
Verif.Props.C146_sub_labels: propext, Classical.choice, Quot.sound
Verif.Props.C146_sub: propext, Classical.choice, Quot.sound
Verif.Props.C146_sub_succeeds: propext, Classical.choice, Quot.sound
Verif.Props.C147_levels: propext, Classical.choice, Quot.sound
Verif.Props.C147_doubles: propext, Classical.choice, Quot.sound
Verif.Props.C147_level_errors: propext, Classical.choice, Quot.sound
Verif.Props.C148_errors: propext, Classical.choice, Quot.sound
Verif.Props.C148_recovery: propext, Classical.choice, Quot.sound
Verif.Props.C149_accuracy: propext, Classical.choice, Quot.sound
Verif.Props.C149_chain: propext, Classical.choice, Quot.sound
Verif.Props.C150_wetdry: propext, Classical.choice, Quot.sound
Verif.Props.C150_wetdry_hourly: propext, Classical.choice, Quot.sound
Verif.Props.C150_reference: propext, Classical.choice, Quot.sound
Verif.Props.C150_mlp: propext, Classical.choice, Quot.sound
Verif.Props.C151_distance: propext, Classical.choice, Quot.sound
Verif.Props.C151_nothing: propext, Classical.choice, Quot.sound
Verif.Props.C151_monotone: propext, Classical.choice, Quot.sound
Verif.Props.C151_not_exact: propext, Classical.choice, Quot.sound
Verif.Props.C152_whole_seconds: propext, Classical.choice, Quot.sound
Verif.Props.C152_limit: propext, Classical.choice, Quot.sound
Verif.Props.C152_error: propext, Classical.choice, Quot.sound
Verif.Props.C152_missing: propext, Classical.choice, Quot.sound
Verif.Props.C152_order: propext, Classical.choice, Quot.sound
Verif.Props.C152_collision: propext, Classical.choice, Quot.sound
Verif.Props.C152_frequency: propext, Classical.choice, Quot.sound
Verif.Props.C152_file: propext, Classical.choice, Quot.sound
Verif.Props.C153_errors: propext, Classical.choice, Quot.sound
Verif.Props.C153_rates: propext, Classical.choice, Quot.sound
Verif.Props.C153_perfect: propext, Classical.choice, Quot.sound
Verif.Props.C153_sharp: propext, Classical.choice, Quot.sound
Verif.Props.C153_dataset: propext, Classical.choice, Quot.sound
Verif.Props.C154_range: propext, Classical.choice, Quot.sound
Verif.Props.C154_accuracy: propext, Classical.choice, Quot.sound
Verif.Props.C154_cancellation: propext, Classical.choice, Quot.sound
Verif.Props.C155_value: propext, Classical.choice, Quot.sound
Verif.Props.C155_detect: propext, Classical.choice, Quot.sound
Verif.Props.C155_monotone: propext, Classical.choice, Quot.sound
Verif.Props.C156_attenuation: propext, Classical.choice, Quot.sound
Verif.Props.C156_rain: propext, Classical.choice, Quot.sound
Verif.Props.C157_constant: propext, Classical.choice, Quot.sound
Verif.Props.C157_linear: propext, Classical.choice, Quot.sound
Verif.Props.C158_field: propext, Classical.choice, Quot.sound
Verif.Props.C158_rain_map: propext, Classical.choice, Quot.sound
Verif.Props.C159_raises: propext, Classical.choice, Quot.sound
Verif.Props.C159_otherwise: propext, Classical.choice, Quot.sound
Verif.Props.C159_generated: propext, Classical.choice, Quot.sound
Verif.Props.C159_history: propext, Classical.choice, Quot.sound
Verif.Props.C160_results: propext, Classical.choice, Quot.sound
Verif.Props.C160_unknown: propext, Classical.choice, Quot.sound
Verif.Props.C160_rates: propext, Classical.choice, Quot.sound
Verif.Props.C161_pipeline: propext, Classical.choice, Quot.sound
Verif.Props.C161_rounding: propext, Classical.choice, Quot.sound
Verif.Props.C161_probability: propext, Classical.choice, Quot.sound
Verif.Props.C162_attenuation: propext, Classical.choice, Quot.sound
Verif.Props.C162_rain: propext, Classical.choice, Quot.sound
Verif.Props.C162_false_alarms: propext, Classical.choice, Quot.sound
Verif.Props.C162_false_alarms_linear: propext, Classical.choice, Quot.sound
Verif.Props.C162_missed_start: propext, Classical.choice, Quot.sound
Verif.Props.C162_doubles: propext, Classical.choice, Quot.sound
Verif.Props.C163_accuracy: propext, Classical.choice, Quot.sound
Verif.Props.C163_itu: propext, Classical.choice, Quot.sound
Verif.Props.C163_grid: propext, Classical.choice, Quot.sound
Verif.Props.C163_range: propext, Classical.choice, Quot.sound
Verif.Props.C164_rates: propext, Classical.choice, Quot.sound
Verif.Props.C164_last_dry: propext, Classical.choice, Quot.sound
Verif.Props.C164_below_raises: propext, Classical.choice, Quot.sound
Verif.Props.C164_constant_level_raises: propext, Classical.choice, Quot.sound
Verif.Props.C164_constant: propext, Classical.choice, Quot.sound
Verif.Props.C164_linear: propext, Classical.choice, Quot.sound
Verif.Props.C165_constant: propext, Classical.choice, Quot.sound
Verif.Props.C165_linear: propext, Classical.choice, Quot.sound
Verif.Props.C165_aggregate: propext, Classical.choice, Quot.sound
Verif.Props.C166_baseline: propext, Classical.choice, Quot.sound
Verif.Props.C166_gaps: propext, Classical.choice, Quot.sound
Verif.Props.C166_baseline_linear: propext, Classical.choice, Quot.sound
Verif.Props.C166_gaps_linear: propext, Classical.choice, Quot.sound
Verif.Props.C167_constant: propext, Classical.choice, Quot.sound
Verif.Props.C167_linear: propext, Classical.choice, Quot.sound
Verif.Props.C168_low: propext, Classical.choice, Quot.sound
Verif.Props.C168_constant: propext, Classical.choice, Quot.sound
Verif.Props.C168_linear: propext, Classical.choice, Quot.sound
Verif.Props.C169_low: propext, Classical.choice, Quot.sound
Verif.Props.C169_constant: propext, Classical.choice, Quot.sound
Verif.Props.C169_linear: propext, Classical.choice, Quot.sound
Verif.Props.C170_F: propext, Classical.choice, Quot.sound
Verif.Props.C170_rates: propext, Classical.choice, Quot.sound
Verif.Props.C171_added: propext, Classical.choice, Quot.sound
Verif.Props.C171_in_use: propext, Classical.choice, Quot.sound
Verif.Props.C171_again: propext, Classical.choice, Quot.sound
Verif.Props.C172_map: propext, Classical.choice, Quot.sound
Verif.Props.C172_field: propext, Classical.choice, Quot.sound
Verif.Props.C172_absent: propext, Classical.choice, Quot.sound
Verif.Props.C173_cell: propext, Classical.choice, Quot.sound
Verif.Props.C174_gaps: propext, Classical.choice, Quot.sound
Verif.Props.C174_all: propext, Classical.choice, Quot.sound
Verif.Props.C175_flag: propext, Classical.choice, Quot.sound
Verif.Props.C175_jump: propext, Classical.choice, Quot.sound
Verif.Props.C175_steady: propext, Classical.choice, Quot.sound
Verif.Props.C175_short: propext, Classical.choice, Quot.sound
Verif.Props.C175_rain: propext, Classical.choice, Quot.sound
Verif.Props.C175_events: propext, Classical.choice, Quot.sound
Verif.Props.C175_missed: propext, Classical.choice, Quot.sound
Verif.Props.C176_exact: propext, Classical.choice, Quot.sound
Verif.Props.C176_flags: propext, Classical.choice, Quot.sound
Verif.Props.C176_doubles: propext, Classical.choice, Quot.sound
Verif.Props.C177_fill: propext, Classical.choice, Quot.sound
Verif.Props.C177_defaults: propext, Classical.choice, Quot.sound
Verif.Props.C177_error: propext, Classical.choice, Quot.sound
Verif.Props.C177_levels: propext, Classical.choice, Quot.sound
Verif.Props.C177_rain: propext, Classical.choice, Quot.sound
Verif.Props.C178_hours: propext, Classical.choice, Quot.sound
Verif.Props.C178_amount: propext, Classical.choice, Quot.sound
Verif.Props.C178_missing: propext, Classical.choice, Quot.sound
Verif.Props.C178_dead: propext, Classical.choice, Quot.sound
Verif.Props.C178_map: propext, Classical.choice, Quot.sound
Verif.Props.C178_filter: propext, Classical.choice, Quot.sound
Verif.Props.C178_hole: propext, Classical.choice, Quot.sound
Verif.Props.C178_error: propext, Classical.choice, Quot.sound
Verif.Props.C179_levels: propext, Classical.choice, Quot.sound
Verif.Props.C179_rain: propext, Classical.choice, Quot.sound
Verif.Props.C180_same: propext, Classical.choice, Quot.sound
Verif.Props.C180_more: propext, Classical.choice, Quot.sound
Verif.Props.C180_exact: propext, Classical.choice, Quot.sound
Verif.Props.C180_gaps: propext, Classical.choice, Quot.sound
Verif.Props.C180_lost: propext, Classical.choice, Quot.sound
