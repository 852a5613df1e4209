C01_operators: depends on axioms: [propext, Classical.choice, Quot.sound]
C01_max_min_clamp: depends on axioms: [propext, Classical.choice, Quot.sound]
C01_eq_iff: depends on axioms: [propext, Classical.choice, Quot.sound]
C01_cmp: depends on axioms: [propext, Classical.choice, Quot.sound]
C01_hash: depends on axioms: [propext, Classical.choice, Quot.sound]
C02_assign: depends on axioms: [propext, Classical.choice, Quot.sound]
C02_sign: depends on axioms: [propext, Classical.choice, Quot.sound]
C02_sign_sub: depends on axioms: [propext, Classical.choice, Quot.sound]
C02_checked_add: depends on axioms: [propext, Classical.choice, Quot.sound]
C02_checked_sub: depends on axioms: [propext, Classical.choice, Quot.sound]
C02_saturating_add: depends on axioms: [propext, Classical.choice, Quot.sound]
C02_saturating_sub: depends on axioms: [propext, Classical.choice, Quot.sound]
C02_add: depends on axioms: [propext, Classical.choice, Quot.sound]
C02_sub: depends on axioms: [propext, Classical.choice, Quot.sound]
C03_neg: depends on axioms: [propext, Classical.choice, Quot.sound]
C03_abs: depends on axioms: [propext, Quot.sound]
C03_min_max: does not depend on any axioms
C04_as_whole_units: depends on axioms: [propext, Classical.choice, Quot.sound]
C04_subsec: depends on axioms: [propext, Quot.sound]
C04_as_seconds_millis_micros_nanos: depends on axioms: [propext, Classical.choice, Quot.sound]
C05_extract: depends on axioms: [propext, Classical.choice, Quot.sound]
C05_extract_chain: depends on axioms: [propext, Classical.choice, Quot.sound]
C05_any_chain: depends on axioms: [propext, Classical.choice, Quot.sound]
C06_display_parse: depends on axioms: [propext, Classical.choice, Quot.sound]
C07_to_std: depends on axioms: [propext, Quot.sound]
C07_std_round_trip: depends on axioms: [propext]
C07_saturating_to_std: depends on axioms: [propext, Quot.sound]
C08_range: depends on axioms: [propext]
C08_to_time: depends on axioms: [propext, Classical.choice, Quot.sound]
C08_of_time: depends on axioms: [propext, Classical.choice, Quot.sound]
C08_time_round_trip: depends on axioms: [propext, Classical.choice, Quot.sound]
C08_saturating_to_time: depends on axioms: [propext, Classical.choice, Quot.sound]
C09_range: depends on axioms: [propext]
C09_to_chrono: depends on axioms: [propext, Classical.choice, Quot.sound]
C09_of_chrono: depends on axioms: [propext, Classical.choice, Quot.sound]
C09_chrono_round_trip: depends on axioms: [propext, Classical.choice, Quot.sound]
C09_saturating_to_chrono: depends on axioms: [propext, Classical.choice, Quot.sound]
C10_checked_mul: depends on axioms: [propext]
C10_value: depends on axioms: [propext, Classical.choice, Quot.sound]
C10_saturating_neg: depends on axioms: [propext, Classical.choice, Quot.sound]
C10_sign: depends on axioms: [propext, Classical.choice, Quot.sound]
C11_eight_at_once: depends on axioms: [propext, Classical.choice, Quot.sound]
C11_scan_digits: depends on axioms: [propext, Classical.choice, Quot.sound]
C12_parse_8_digits: depends on axioms: [propext, Classical.choice, Quot.sound]
C13_strip_zeros: depends on axioms: [propext, Classical.choice, Quot.sound]
C14_whole: depends on axioms: [propext, Classical.choice, Quot.sound]
C15_fract: depends on axioms: [propext, Classical.choice, Quot.sound]
C16_text: depends on axioms: [propext, Classical.choice, Quot.sound]
C16_exact: depends on axioms: [propext, Classical.choice, Quot.sound]
C16_literal: depends on axioms: [propext, Classical.choice, Quot.sound]
C17_text: depends on axioms: [propext, Classical.choice, Quot.sound]
C17_text_bound: depends on axioms: [propext, Classical.choice, Quot.sound]
C17_exact: depends on axioms: [propext, Classical.choice, Quot.sound]
C17_error_bound: depends on axioms: [propext, Classical.choice, Quot.sound]
C17_literal: depends on axioms: [propext, Classical.choice, Quot.sound]
C18_text: depends on axioms: [propext, Classical.choice, Quot.sound]
C18_text_monotone: depends on axioms: [propext, Classical.choice, Quot.sound]
C18_equal_values: depends on axioms: [propext, Classical.choice, Quot.sound]
C18_monotone: depends on axioms: [propext, Classical.choice, Quot.sound]
C19_text: depends on axioms: [propext, Classical.choice, Quot.sound]
C19_zero: depends on axioms: [propext, Classical.choice, Quot.sound]
C19_tiny_is_zero: depends on axioms: [propext, Classical.choice, Quot.sound]
C19_negative_iff: depends on axioms: [propext, Classical.choice, Quot.sound]
C20_overflow: depends on axioms: [propext, Classical.choice, Quot.sound]
C20_in_range: depends on axioms: [propext, Classical.choice, Quot.sound]
C20_sequence: depends on axioms: [propext, Classical.choice, Quot.sound]
C21_infinity: depends on axioms: [propext, Classical.choice, Quot.sound]
C21_disabled: depends on axioms: [propext, Classical.choice, Quot.sound]
C21_multiple: depends on axioms: [propext, Classical.choice, Quot.sound]
C22_each: depends on axioms: [propext, Classical.choice, Quot.sound]
C22_nonnegative: depends on axioms: [propext, Quot.sound]
C23_no_panic: depends on axioms: [propext, Classical.choice, Quot.sound]
C23_only_multiplication_panics: depends on axioms: [propext, Classical.choice, Quot.sound]
C24_terminates: depends on axioms: [propext, Classical.choice, Quot.sound]
C24_progress: depends on axioms: [propext, Classical.choice, Quot.sound]
C25_error_positions: depends on axioms: [propext, Classical.choice, Quot.sound]
C26_empty: depends on axioms: [propext, Classical.choice, Quot.sound]
C27_single: depends on axioms: [propext, Classical.choice, Quot.sound]
C27_multiple: depends on axioms: [propext, Classical.choice, Quot.sound]
C27_unambiguous_single: depends on axioms: [propext, Classical.choice, Quot.sound]
C27_unambiguous_multiple: depends on axioms: [propext, Classical.choice, Quot.sound]
C28_fraction: depends on axioms: [propext, Classical.choice, Quot.sound]
C28_exponent: depends on axioms: [propext, Classical.choice, Quot.sound]
C28_no_units: depends on axioms: [propext, Classical.choice, Quot.sound]
C28_unit_delimiter: depends on axioms: [propext, Classical.choice, Quot.sound]
C28_sign_delimiter: depends on axioms: [propext, Classical.choice, Quot.sound]
C28_multiple: depends on axioms: [propext]
C28_unit_delimiter_multiple: depends on axioms: [propext, Quot.sound]
C28_unit_delimiter_rejected: depends on axioms: [propext, Classical.choice, Quot.sound]
C28_sign_delimiter_multiple: depends on axioms: [propext, Quot.sound]
C28_sign_delimiter_rejected: depends on axioms: [propext, Classical.choice, Quot.sound]
C29_saturating_sum: depends on axioms: [propext, Classical.choice, Quot.sound]
C29_exact: depends on axioms: [propext, Classical.choice, Quot.sound]
C29_nonnegative: depends on axioms: [propext, Classical.choice, Quot.sound]
C29_order_independent: depends on axioms: [propext, Classical.choice, Quot.sound]
C29_order_matters: depends on axioms: [propext]
C30_ago: depends on axioms: [propext, Classical.choice, Quot.sound]
C30_sign_cancels: depends on axioms: [propext, Classical.choice, Quot.sound]
C30_ago_unit: depends on axioms: [propext, Classical.choice, Quot.sound]
C30_ago_multiple: depends on axioms: [propext, Classical.choice, Quot.sound]
C31_sequence: depends on axioms: [propext, Classical.choice, Quot.sound]
C31_sequence_value: depends on axioms: [propext, Classical.choice, Quot.sound]
C31_unit_without_number: depends on axioms: [propext, Classical.choice, Quot.sound]
C31_sign_lost: depends on axioms: [propext]
C31_keyword: depends on axioms: [propext, Classical.choice, Quot.sound]
C31_unit_value: depends on axioms: [propext, Classical.choice, Quot.sound]
C31_small_exponent: depends on axioms: [propext]
C32_sequence_value: depends on axioms: [propext, Classical.choice, Quot.sound]
C32_numeral: depends on axioms: [propext, Classical.choice, Quot.sound]
C32_numeral_without_unit: depends on axioms: [propext, Classical.choice, Quot.sound]
C33_buffer_transparent: depends on axioms: [propext, Classical.choice, Quot.sound]
C33_same_delimiters: depends on axioms: [propext, Classical.choice, Quot.sound]
C33_counterexample: depends on axioms: [propext]
C34_get: depends on axioms: [propext, Quot.sound]
C34_current: depends on axioms: [propext, Quot.sound]
C34_is_empty: depends on axioms: [propext, Quot.sound]
C34_constructors: does not depend on any axioms
C35_standard_setters: depends on axioms: [propext, Quot.sound]
C35_custom_setters: depends on axioms: [propext, Quot.sound]
C35_config_builder: depends on axioms: [propext, Quot.sound]
C35_standard_builder: depends on axioms: [propext, Quot.sound]
C35_custom_builder: depends on axioms: [propext, Quot.sound]
C35_custom_tables: depends on axioms: [propext, Quot.sound]
C35_defaults: does not depend on any axioms
C35_crates: depends on axioms: [propext]
C35_default_config: depends on axioms: [propext]
C35_default_units: depends on axioms: [propext, Quot.sound]
C36_get: depends on axioms: [propext, Classical.choice, Quot.sound]
C36_resolves: depends on axioms: [propext, Classical.choice, Quot.sound]
C36_sound: depends on axioms: [propext, Classical.choice, Quot.sound]
C36_unique: depends on axioms: [propext, Classical.choice, Quot.sound]
C36_is_empty: depends on axioms: [propext, Classical.choice, Quot.sound]
C36_keywords: depends on axioms: [propext]
C37_get: depends on axioms: [propext, Quot.sound]
C37_none: depends on axioms: [propext, Quot.sound]
C38_bounded: depends on axioms: [propext, Classical.choice, Quot.sound]
C38_negative_max: depends on axioms: [propext]
C38_infinity: depends on axioms: [propext, Classical.choice, Quot.sound]
C38_value: depends on axioms: [propext, Classical.choice, Quot.sound]
C38_default_max: depends on axioms: [propext]
C39_gnu: depends on axioms: [propext, Quot.sound]
C39_systemd: depends on axioms: [propext, Quot.sound]
C39_trim: depends on axioms: [propext, Classical.choice, Quot.sound]
C39_trim_surround: depends on axioms: [propext, Quot.sound]
C40_constructors: does not depend on any axioms
C40_functions: depends on axioms: [propext]
C40_extends: depends on axioms: [propext, Classical.choice, Quot.sound]
C40_same: depends on axioms: [propext, Classical.choice, Quot.sound]
C40_same_functions: depends on axioms: [propext, Classical.choice, Quot.sound]
C41_no_panic: depends on axioms: [propext, Classical.choice, Quot.sound]
C41_units: depends on axioms: [propext, Classical.choice, Quot.sound]
C41_keywords: depends on axioms: [propext, Classical.choice, Quot.sound]
C41_is_empty: depends on axioms: [propext, Classical.choice, Quot.sound]
C41_numerals: depends on axioms: [propext, Classical.choice, Quot.sound]
C41_unambiguous: does not depend on any axioms
C42_date_irrelevant: depends on axioms: [propext]
C42_exact_parts: depends on axioms: [propext, Classical.choice, Quot.sound]
C42_errors: depends on axioms: [propext]
C43_relative_date: depends on axioms: [propext, Classical.choice, Quot.sound]
C43_otherwise_overflow: depends on axioms: [propext, Classical.choice, Quot.sound]
C43_reached: depends on axioms: [propext, Classical.choice, Quot.sound]
C44_spec_epoch: depends on axioms: [propext, Classical.choice, Quot.sound]
C44_spec_next: depends on axioms: [propext, Classical.choice, Quot.sound]
C44_try_from_gregorian: depends on axioms: [propext, Classical.choice, Quot.sound]
C44_panics: depends on axioms: [propext, Quot.sound]
C44_from_gregorian: depends on axioms: [propext, Classical.choice, Quot.sound]
C44_next: depends on axioms: [propext, Classical.choice, Quot.sound]
C45_to_gregorian: depends on axioms: [propext, Classical.choice, Quot.sound]
C45_inverse: depends on axioms: [propext, Classical.choice, Quot.sound]
C45_range: depends on axioms: [propext, Classical.choice, Quot.sound]
C46_to_gregorian: depends on axioms: [propext, Classical.choice, Quot.sound]
C47_checked_add_duration: depends on axioms: [propext, Classical.choice, Quot.sound]
C47_add_none: depends on axioms: [propext, Classical.choice, Quot.sound]
C47_checked_sub_duration: depends on axioms: [propext, Classical.choice, Quot.sound]
C47_duration_since: depends on axioms: [propext, Classical.choice, Quot.sound]
C47_inverse: depends on axioms: [propext, Classical.choice, Quot.sound]
C48_reachable: depends on axioms: [propext, Classical.choice, Quot.sound]
C48_as_hmsn: depends on axioms: [propext, Quot.sound]
C48_no_panic: depends on axioms: [propext, Classical.choice, Quot.sound]
C49_checked_add_gregorian: depends on axioms: [propext, Classical.choice, Quot.sound]
C49_carry: depends on axioms: [propext, Classical.choice, Quot.sound]
C49_identity: depends on axioms: [propext, Classical.choice, Quot.sound]
C49_months_years: depends on axioms: [propext, Classical.choice, Quot.sound]
C50_round_trip: depends on axioms: [propext, Classical.choice, Quot.sound]
C51_floor_div: depends on axioms: [propext, Classical.choice, Quot.sound]
C51_panics: depends on axioms: [propext]
C52_floor_log2: depends on axioms: [propext, Classical.choice, Quot.sound]
C52_floor_log10: depends on axioms: [propext, Classical.choice, Quot.sound]
C52_zero: depends on axioms: [propext]
C53_from_civil: depends on axioms: [propext, Classical.choice, Quot.sound]
C53_leap_second: depends on axioms: [propext, Classical.choice, Quot.sound]
C53_epoch: does not depend on any axioms
C53_now: depends on axioms: [propext, Classical.choice, Quot.sound]
C54_order: depends on axioms: [propext, Classical.choice, Quot.sound]
C55_number_unit: depends on axioms: [propext, Classical.choice, Quot.sound]
C55_order: does not depend on any axioms
C55_fraction_unit: depends on axioms: [propext, Classical.choice, Quot.sound]
C55_default_unit: depends on axioms: [propext, Classical.choice, Quot.sound]
C56_no_panic: depends on axioms: [propext, Classical.choice, Quot.sound]
C56_parse_duration: depends on axioms: [propext, Classical.choice, Quot.sound]
C57_no_panic: depends on axioms: [propext, Classical.choice, Quot.sound]
C58_table: depends on axioms: [propext, Quot.sound]
C58_spans: depends on axioms: [propext, Classical.choice, Quot.sound]
C59_parse_fuzzy: depends on axioms: [propext, Classical.choice, Quot.sound]
C59_parse_with_date: depends on axioms: [propext, Classical.choice, Quot.sound]
C60_parse_fuzzy: depends on axioms: [propext, Classical.choice, Quot.sound]
C60_unambiguous: depends on axioms: [propext, Classical.choice, Quot.sound]
C60_range: depends on axioms: [propext, Classical.choice, Quot.sound]
C61_sentence: depends on axioms: [propext, Classical.choice, Quot.sound]
C61_number: depends on axioms: [propext, Classical.choice, Quot.sound]
C61_fraction_only_with_seconds: depends on axioms: [propext, Classical.choice, Quot.sound]
C62_case: depends on axioms: [propext, Classical.choice, Quot.sound]
C62_with_date: depends on axioms: [propext, Classical.choice, Quot.sound]
C63_multiple_exact: depends on axioms: [propext, Classical.choice, Quot.sound]
C63_single_multiple_exact: depends on axioms: [propext, Classical.choice, Quot.sound]
C63_standard_exact: depends on axioms: [propext, Classical.choice, Quot.sound]
C63_single: depends on axioms: [propext, Classical.choice, Quot.sound]
C63_multiple: depends on axioms: [propext, Classical.choice, Quot.sound]
C63_single_multiple: depends on axioms: [propext, Classical.choice, Quot.sound]
C63_standard: depends on axioms: [propext, Classical.choice, Quot.sound]
C63_standard_multiple: depends on axioms: [propext, Classical.choice, Quot.sound]
C64_single: depends on axioms: [propext, Quot.sound]
C64_multiple_or: depends on axioms: [propext, Quot.sound]
C64_multiple: depends on axioms: [propext, Classical.choice, Quot.sound]
C65_default_multiplier: depends on axioms: [propext, Quot.sound]
C65_outer_delimiter: depends on axioms: [propext]
C65_inner_delimiter: depends on axioms: [propext]
C65_default_unit: depends on axioms: [propext, Classical.choice, Quot.sound]
C66_errors: depends on axioms: [propext, Classical.choice, Quot.sound]
C66_standard: depends on axioms: [propext, Classical.choice, Quot.sound]
C66_custom: depends on axioms: [propext, Classical.choice, Quot.sound]
C66_systemd: depends on axioms: [propext, Classical.choice, Quot.sound]
C66_systemd_nanos: depends on axioms: [propext, Classical.choice, Quot.sound]
C66_gnu_fuzzy: depends on axioms: [propext, Classical.choice, Quot.sound]
C66_gnu: depends on axioms: [propext, Classical.choice, Quot.sound]
C67_conversion_messages: does not depend on any axioms
C67_messages: depends on axioms: [propext, Classical.choice, Quot.sound]
C67_reasons: depends on axioms: [propext, Quot.sound]
C67_column: depends on axioms: [propext, Classical.choice, Quot.sound]
C67_text: depends on axioms: [propext, Classical.choice, Quot.sound]
C67_text_systemd: depends on axioms: [propext, Classical.choice, Quot.sound]
C67_text_gnu: depends on axioms: [propext, Classical.choice, Quot.sound]
C67_quotes: depends on axioms: [propext, Classical.choice, Quot.sound]
C67_conversion: depends on axioms: [propext, Classical.choice, Quot.sound]
C68_durations: depends on axioms: [propext, Classical.choice, Quot.sound]
C68_durations_conjunction: depends on axioms: [propext, Classical.choice, Quot.sound]
C68_sum: depends on axioms: [propext, Classical.choice, Quot.sound]
C68_sum_conjunction: depends on axioms: [propext, Classical.choice, Quot.sound]
C68_exact: depends on axioms: [propext, Classical.choice, Quot.sound]
C68_numbers_follow: depends on axioms: [propext, Quot.sound]
C68_systemd: depends on axioms: [propext, Classical.choice, Quot.sound]
C68_saturating_add: depends on axioms: [propext, Classical.choice, Quot.sound]
C68_append: depends on axioms: [propext, Classical.choice, Quot.sound]
C68_systemd_exact: depends on axioms: [propext, Classical.choice, Quot.sound]
C69_same_table: depends on axioms: [propext, Classical.choice, Quot.sound]
C69_custom_is_standard: depends on axioms: [propext, Classical.choice, Quot.sound]
C69_default_lists: depends on axioms: [propext, Classical.choice, Quot.sound]
C69_systemd_list: depends on axioms: [propext, Classical.choice, Quot.sound]
C69_systemd_table: depends on axioms: [propext, Classical.choice, Quot.sound]
C70_limits: depends on axioms: [propext, Classical.choice, Quot.sound]
C70_default: does not depend on any axioms
C70_eq: depends on axioms: [propext]
C70_equal_units: depends on axioms: [propext, Classical.choice, Quot.sound]
C71_single: depends on axioms: [propext, Classical.choice, Quot.sound]
C71_multiple: depends on axioms: [propext, Classical.choice, Quot.sound]
C71_unique: depends on axioms: [propext, Classical.choice, Quot.sound]
C71_unique_multiple: depends on axioms: [propext, Classical.choice, Quot.sound]
C71_duration_or_mistake: depends on axioms: [propext, Classical.choice, Quot.sound]
C71_durations_or_mistake: depends on axioms: [propext, Classical.choice, Quot.sound]
C71_fraction: depends on axioms: [propext, Classical.choice, Quot.sound]
C71_exponent: depends on axioms: [propext, Classical.choice, Quot.sound]
C71_no_units: depends on axioms: [propext, Classical.choice, Quot.sound]
C71_standard_single: depends on axioms: [propext, Classical.choice, Quot.sound]
C71_standard_multiple: depends on axioms: [propext, Classical.choice, Quot.sound]
C71_custom_single: depends on axioms: [propext, Classical.choice, Quot.sound]
C71_custom_multiple: depends on axioms: [propext, Classical.choice, Quot.sound]
C71_systemd: depends on axioms: [propext, Classical.choice, Quot.sound]
C71_reported: depends on axioms: [propext, Classical.choice, Quot.sound]
C71_never: depends on axioms: [propext, Classical.choice, Quot.sound]
C72_constructors: depends on axioms: [propext, Classical.choice, Quot.sound]
C72_every: depends on axioms: [propext, Quot.sound]
C73_is_empty: depends on axioms: [propext, Classical.choice, Quot.sound]
C73_get: depends on axioms: [propext, Classical.choice, Quot.sound]
C73_empty_knows_nothing: depends on axioms: [propext, Classical.choice, Quot.sound]
C74_of_date: depends on axioms: [propext, Classical.choice, Quot.sound]
C74_of_instant: depends on axioms: [propext, Quot.sound]
C74_monotone: depends on axioms: [propext, Quot.sound]
C74_to_gregorian: depends on axioms: [propext, Classical.choice, Quot.sound]
C75_relative_or_mistake: depends on axioms: [propext, Classical.choice, Quot.sound]
C75_parse_fuzzy: depends on axioms: [propext, Classical.choice, Quot.sound]
C75_unique: depends on axioms: [propext, Classical.choice, Quot.sound]
C75_parse_with_date: depends on axioms: [propext, Classical.choice, Quot.sound]
C75_reasons: depends on axioms: [propext, Classical.choice, Quot.sound]
C75_empty: depends on axioms: [propext, Classical.choice, Quot.sound]
C75_only_seconds: depends on axioms: [propext, Classical.choice, Quot.sound]
C76_written: depends on axioms: [propext, Classical.choice, Quot.sound]
C76_every_duration: depends on axioms: [propext, Classical.choice, Quot.sound]
C76_injective: depends on axioms: [propext, Classical.choice, Quot.sound]
C76_parse_duration: depends on axioms: [propext, Classical.choice, Quot.sound]
C77_plus_single: depends on axioms: [propext, Classical.choice, Quot.sound]
C77_plus_multiple: depends on axioms: [propext, Classical.choice, Quot.sound]
C77_minus: depends on axioms: [propext, Classical.choice, Quot.sound]
C77_standard: depends on axioms: [propext, Quot.sound]
C77_minus_multiple: depends on axioms: [propext, Classical.choice, Quot.sound]
C78_custom: depends on axioms: [propext, Classical.choice, Quot.sound]
C78_phrases: depends on axioms: [propext, Classical.choice, Quot.sound]
C78_exact: depends on axioms: [propext, Classical.choice, Quot.sound]
C78_standard: depends on axioms: [propext, Classical.choice, Quot.sound]
C78_conjunction_after_plain_number: depends on axioms: [propext]
C79_accepted_matches: depends on axioms: [propext, Classical.choice, Quot.sound]
C79_matches_accepted: depends on axioms: [propext, Classical.choice, Quot.sound]
C79_without_exponent: depends on axioms: [propext, Classical.choice, Quot.sound]
C79_standard: depends on axioms: [propext, Classical.choice, Quot.sound]
C79_custom: depends on axioms: [propext, Classical.choice, Quot.sound]
C79_fuzz_target: depends on axioms: [propext, Classical.choice, Quot.sound]
C80_number: depends on axioms: [propext, Classical.choice, Quot.sound]
C80_infinity: depends on axioms: [propext, Classical.choice, Quot.sound]
C80_rejected: depends on axioms: [propext, Classical.choice, Quot.sound]
C80_nan: depends on axioms: [propext, Classical.choice, Quot.sound]
C81_single: depends on axioms: [propext, Classical.choice, Quot.sound]
C81_texts: depends on axioms: [propext, Classical.choice, Quot.sound]
C81_one_gap: depends on axioms: [propext, Classical.choice, Quot.sound]
C81_standard: depends on axioms: [propext, Classical.choice, Quot.sound]
C81_systemd: depends on axioms: [propext, Classical.choice, Quot.sound]
C81_gnu: depends on axioms: [propext, Classical.choice, Quot.sound]
C82_parts: depends on axioms: [propext, Classical.choice, Quot.sound]
C82_joined: depends on axioms: [propext, Classical.choice, Quot.sound]
C82_exact: depends on axioms: [propext, Classical.choice, Quot.sound]
C82_sum: depends on axioms: [propext, Classical.choice, Quot.sound]
C83_duration: depends on axioms: [propext, Classical.choice, Quot.sound]
C83_duration_seq: depends on axioms: [propext, Classical.choice, Quot.sound]
C83_duration_fields: depends on axioms: [propext, Classical.choice, Quot.sound]
C83_duration_valid: depends on axioms: [propext, Quot.sound]
C83_duration_accepted: depends on axioms: [propext, Quot.sound]
C83_field: depends on axioms: [propext]
C83_seq_length: depends on axioms: [propext]
C83_fields_once: depends on axioms: [propext]
C83_fields_order: depends on axioms: [propext, Quot.sound]
C83_time_unit: depends on axioms: [propext]
C83_time_unit_only: depends on axioms: [propext]
C83_stored_units: depends on axioms: [propext]
C83_multiplier: depends on axioms: [propext]
C83_multiplier_valid: depends on axioms: [propext]
C83_julian_day: depends on axioms: [propext]
C83_date_time: depends on axioms: [propext, Quot.sound]
C83_date_time_fields: depends on axioms: [propext, Quot.sound]
C83_conversion_error: depends on axioms: [propext]
C83_parse_error: depends on axioms: [propext, Classical.choice, Quot.sound]
C83_parse_error_injective: depends on axioms: [propext]
C83_stored_errors: does not depend on any axioms
C83_stored_fields: does not depend on any axioms
C84_matches_accepted: depends on axioms: [propext, Classical.choice, Quot.sound]
C84_accepted_matches: depends on axioms: [propext, Classical.choice, Quot.sound]
C84_parse: depends on axioms: [propext, Classical.choice, Quot.sound]
C84_iff: depends on axioms: [propext, Classical.choice, Quot.sound]
C85_systemd_human: depends on axioms: [propext, Classical.choice, Quot.sound]
C85_systemd_main: depends on axioms: [propext, Classical.choice, Quot.sound]
C85_systemd_again: depends on axioms: [propext, Classical.choice, Quot.sound]
C85_systemd_crate: depends on axioms: [propext, Classical.choice, Quot.sound]
C85_units: does not depend on any axioms
C85_gnu_human: depends on axioms: [propext, Classical.choice, Quot.sound]
C85_gnu_main: depends on axioms: [propext, Classical.choice, Quot.sound]
C85_gnu_again: depends on axioms: [propext, Classical.choice, Quot.sound]
C85_gnu_nothing: depends on axioms: [propext]
C85_custom_column: depends on axioms: [propext, Classical.choice, Quot.sound]
C85_custom_main: depends on axioms: [propext, Classical.choice, Quot.sound]
C85_convert_main: depends on axioms: [propext, Classical.choice, Quot.sound]
C85_simple_main: depends on axioms: [propext]
C85_clap_main: depends on axioms: [propext, Classical.choice, Quot.sound]
C85_chrono_main: depends on axioms: [propext, Classical.choice, Quot.sound]
C86_multiple_exact: depends on axioms: [propext, Classical.choice, Quot.sound]
C86_custom_exact: depends on axioms: [propext, Classical.choice, Quot.sound]
C86_single: depends on axioms: [propext, Classical.choice, Quot.sound]
C86_multiple: depends on axioms: [propext, Classical.choice, Quot.sound]
C86_custom: depends on axioms: [propext, Classical.choice, Quot.sound]
C86_condition_needed: depends on axioms: [propext]
C87_custom: depends on axioms: [propext, Classical.choice, Quot.sound]
C87_permutation: depends on axioms: [propext, Classical.choice, Quot.sound]
C87_standard: depends on axioms: [propext, Quot.sound]
C87_condition_needed: depends on axioms: [propext]
C88_single: depends on axioms: [propext, Classical.choice, Quot.sound]
C88_multiple: depends on axioms: [propext, Classical.choice, Quot.sound]
C88_without_time_units: depends on axioms: [propext, Classical.choice, Quot.sound]
C88_custom: depends on axioms: [propext, Classical.choice, Quot.sound]
C88_identifiers_case_sensitive: depends on axioms: [propext]
C89_unused_single: depends on axioms: [propext, Classical.choice, Quot.sound]
C89_unused_multiple: depends on axioms: [propext, Classical.choice, Quot.sound]
C89_used_behind_number: depends on axioms: [propext, Classical.choice, Quot.sound]
C89_used_behind_delimiter: depends on axioms: [propext, Classical.choice, Quot.sound]
C89_used_alone: depends on axioms: [propext, Classical.choice, Quot.sound]
C89_used_keyword: depends on axioms: [propext, Classical.choice, Quot.sound]
C89_digit_unused: does not depend on any axioms
C89_exponent_unused: does not depend on any axioms
C90_opposite: depends on axioms: [propext, Classical.choice, Quot.sound]
C90_exists: depends on axioms: [propext, Classical.choice, Quot.sound]
C90_standard: depends on axioms: [propext, Classical.choice, Quot.sound]
C91_opposite: depends on axioms: [propext, Classical.choice, Quot.sound]
C91_exact: depends on axioms: [propext, Classical.choice, Quot.sound]
C91_exists: depends on axioms: [propext, Classical.choice, Quot.sound]
C92_value: depends on axioms: [propext, Classical.choice, Quot.sound]
C92_error: depends on axioms: [propext, Classical.choice, Quot.sound]
C92_complete: depends on axioms: [propext, Classical.choice, Quot.sound]
C92_functions: depends on axioms: [propext]
C93_single: depends on axioms: [propext, Classical.choice, Quot.sound]
C93_multiple: depends on axioms: [propext, Classical.choice, Quot.sound]
C93_unwrap: depends on axioms: [propext, Classical.choice, Quot.sound]
C93_kinds: depends on axioms: [propext, Classical.choice, Quot.sound]
C93_numeral: depends on axioms: [propext, Classical.choice, Quot.sound]
C93_custom: depends on axioms: [propext, Classical.choice, Quot.sound]
C93_kinds_multiple: depends on axioms: [propext, Classical.choice, Quot.sound]
C94_written: depends on axioms: [propext, Classical.choice, Quot.sound]
C94_every: depends on axioms: [propext, Classical.choice, Quot.sound]
C94_injective: depends on axioms: [propext, Classical.choice, Quot.sound]
C94_duration: depends on axioms: [propext, Classical.choice, Quot.sound]
C95_exact: depends on axioms: [propext, Classical.choice, Quot.sound]
C95_months: depends on axioms: [propext, Classical.choice, Quot.sound]
C95_years: depends on axioms: [propext, Classical.choice, Quot.sound]
C95_monotone: depends on axioms: [propext, Classical.choice, Quot.sound]
C95_same_month: depends on axioms: [propext, Classical.choice, Quot.sound]
C95_repeats: depends on axioms: [propext, Classical.choice, Quot.sound]
C95_add_gregorian: depends on axioms: [propext, Classical.choice, Quot.sound]
C95_later_date: depends on axioms: [propext, Classical.choice, Quot.sound]
C96_durations: depends on axioms: [propext, Classical.choice, Quot.sound]
C96_duration: depends on axioms: [propext, Classical.choice, Quot.sound]
C96_standard: depends on axioms: [propext, Classical.choice, Quot.sound]
C96_standard_single: depends on axioms: [propext, Classical.choice, Quot.sound]
C96_custom: depends on axioms: [propext, Classical.choice, Quot.sound]
C96_exponent_alone: depends on axioms: [propext, Classical.choice, Quot.sound]
C96_deviations: depends on axioms: [propext]
C97_order: depends on axioms: [propext, Classical.choice, Quot.sound]
C97_order_signed: depends on axioms: [propext, Classical.choice, Quot.sound]
C97_systemd: depends on axioms: [propext, Classical.choice, Quot.sound]
C97_gnu: depends on axioms: [propext, Classical.choice, Quot.sound]
C97_order_matters: depends on axioms: [propext]
C98_display_exact: depends on axioms: [propext, Classical.choice, Quot.sound]
C98_seconds: depends on axioms: [propext, Classical.choice, Quot.sound]
C98_every: depends on axioms: [propext, Classical.choice, Quot.sound]
C98_display: depends on axioms: [propext, Classical.choice, Quot.sound]
C98_display_rejected: depends on axioms: [propext, Classical.choice, Quot.sound]
C98_display_zero: depends on axioms: [propext, Classical.choice, Quot.sound]
C99_sign: depends on axioms: [propext, Classical.choice, Quot.sound]
C99_exact: depends on axioms: [propext, Classical.choice, Quot.sound]
C99_same: depends on axioms: [propext, Classical.choice, Quot.sound]
C99_negative_zero: depends on axioms: [propext]
C100_single: depends on axioms: [propext, Classical.choice, Quot.sound]
C100_multiple: depends on axioms: [propext, Classical.choice, Quot.sound]
C100_systemd: depends on axioms: [propext, Classical.choice, Quot.sound]
C100_gnu: depends on axioms: [propext, Classical.choice, Quot.sound]
C101_tables: depends on axioms: [propext, Classical.choice, Quot.sound]
C101_custom_table: depends on axioms: [propext, Classical.choice, Quot.sound]
C101_parts: depends on axioms: [propext, Classical.choice, Quot.sound]
C101_exact: depends on axioms: [propext, Classical.choice, Quot.sound]
C101_agree: depends on axioms: [propext, Classical.choice, Quot.sound]
C102_current_byte: depends on axioms: [propext, Quot.sound]
C102_buffer: depends on axioms: [propext, Quot.sound]
C102_refines: depends on axioms: [propext]
C103_same: depends on axioms: [propext, Quot.sound]
C103_single: depends on axioms: [propext, Classical.choice, Quot.sound]
C103_linear: depends on axioms: [propext, Classical.choice, Quot.sound]
C103_systemd: depends on axioms: [propext, Classical.choice, Quot.sound]
C103_gnu_same: depends on axioms: [propext, Quot.sound]
C103_gnu: depends on axioms: [propext, Classical.choice, Quot.sound]
C103_condition: depends on axioms: [propext, Classical.choice, Quot.sound]
C104_bytes: depends on axioms: [propext, Classical.choice, Quot.sound]
C104_text: depends on axioms: [propext, Classical.choice, Quot.sound]
C104_custom: depends on axioms: [propext, Classical.choice, Quot.sound]
C104_standard: depends on axioms: [propext, Classical.choice, Quot.sound]
C104_option_standard: depends on axioms: [propext, Classical.choice, Quot.sound]
C104_option_custom: depends on axioms: [propext, Classical.choice, Quot.sound]
C104_option_needed: depends on axioms: [propext]
C104_condition_needed: depends on axioms: [propext, Classical.choice, Quot.sound]
C105_alphabet: depends on axioms: [propext, Classical.choice, Quot.sound]
C105_default: depends on axioms: [propext, Classical.choice, Quot.sound]
C105_systemd: depends on axioms: [propext, Classical.choice, Quot.sound]
C105_gnu: depends on axioms: [propext, Classical.choice, Quot.sound]
C106_ends: depends on axioms: [propext, Classical.choice, Quot.sound]
C106_delimiters: depends on axioms: [propext, Classical.choice, Quot.sound]
C107_table: depends on axioms: [propext, Classical.choice, Quot.sound]
C107_agree: depends on axioms: [propext, Classical.choice, Quot.sound]
C107_same: depends on axioms: [propext, Classical.choice, Quot.sound]
C107_more: depends on axioms: [propext]
C107_converse: depends on axioms: [propext, Classical.choice, Quot.sound]
C108_texts: depends on axioms: [propext, Classical.choice, Quot.sound]
C108_standard: depends on axioms: [propext, Classical.choice, Quot.sound]
C108_systemd: depends on axioms: [propext, Classical.choice, Quot.sound]
C108_gnu: depends on axioms: [propext, Classical.choice, Quot.sound]
C108_same_value: depends on axioms: [propext, Classical.choice, Quot.sound]
C108_condition_needed: depends on axioms: [propext]
C109_pieces: depends on axioms: [propext, Classical.choice, Quot.sound]
C109_nonnegative: depends on axioms: [propext, Classical.choice, Quot.sound]
C109_standard: depends on axioms: [propext, Classical.choice, Quot.sound]
C109_systemd: depends on axioms: [propext, Classical.choice, Quot.sound]
C109_gnu: depends on axioms: [propext, Classical.choice, Quot.sound]
C110_from_gregorian: depends on axioms: [propext, Classical.choice, Quot.sound]
C110_to_gregorian: depends on axioms: [propext, Classical.choice, Quot.sound]
C110_date_times: depends on axioms: [propext, Classical.choice, Quot.sound]
C110_add_duration: depends on axioms: [propext, Classical.choice, Quot.sound]
C110_add_years: depends on axioms: [propext, Classical.choice, Quot.sound]
C110_add_months: depends on axioms: [propext, Classical.choice, Quot.sound]
C111_smaller: depends on axioms: [propext, Classical.choice, Quot.sound]
C111_accepted: depends on axioms: [propext, Classical.choice, Quot.sound]
C111_standard: depends on axioms: [propext, Classical.choice, Quot.sound]
C111_systemd: depends on axioms: [propext, Classical.choice, Quot.sound]
C111_gnu_accepted: depends on axioms: [propext, Classical.choice, Quot.sound]
C111_gnu_smaller: depends on axioms: [propext, Classical.choice, Quot.sound]
C111_condition_needed: depends on axioms: [propext]
C112_commutative: depends on axioms: [propext, Classical.choice, Quot.sound]
C112_associative: depends on axioms: [propext, Classical.choice, Quot.sound]
C112_inverse: depends on axioms: [propext, Classical.choice, Quot.sound]
C112_subtraction: depends on axioms: [propext, Classical.choice, Quot.sound]
C112_negation: depends on axioms: [propext, Classical.choice, Quot.sound]
C112_monotone: depends on axioms: [propext, Classical.choice, Quot.sound]
C112_saturating: depends on axioms: [propext, Classical.choice, Quot.sound]
C112_limits: depends on axioms: [propext]
C112_conversions: depends on axioms: [propext, Classical.choice, Quot.sound]
C113_which: depends on axioms: [propext, Classical.choice, Quot.sound]
C113_display: depends on axioms: [propext, Classical.choice, Quot.sound]
C113_accessors: depends on axioms: [propext, Classical.choice, Quot.sound]
C113_arithmetic: depends on axioms: [propext, Classical.choice, Quot.sound]
C113_dates: depends on axioms: [propext, Classical.choice, Quot.sound]
C113_zeros: does not depend on any axioms
C114_durations: depends on axioms: [propext, Classical.choice, Quot.sound]
C114_inverse: depends on axioms: [propext, Classical.choice, Quot.sound]
C114_since: depends on axioms: [propext, Classical.choice, Quot.sound]
C114_months: depends on axioms: [propext, Classical.choice, Quot.sound]
C115_gnu: depends on axioms: [propext, Classical.choice, Quot.sound]
C115_errors: depends on axioms: [propext, Classical.choice, Quot.sound]
C115_errors_conjunction: depends on axioms: [propext, Classical.choice, Quot.sound]
C115_accepted: depends on axioms: [propext, Classical.choice, Quot.sound]
C115_systemd: depends on axioms: [propext, Classical.choice, Quot.sound]
C116_single: depends on axioms: [propext, Classical.choice, Quot.sound]
C116_multiple: depends on axioms: [propext, Classical.choice, Quot.sound]
C116_never_negative: depends on axioms: [propext, Classical.choice, Quot.sound]
C116_errors: depends on axioms: [propext, Classical.choice, Quot.sound]
C116_standard: depends on axioms: [propext, Classical.choice, Quot.sound]
C116_systemd: depends on axioms: [propext, Classical.choice, Quot.sound]
C116_condition_needed: depends on axioms: [propext]
C117_single: depends on axioms: [propext, Classical.choice, Quot.sound]
C117_multiple: depends on axioms: [propext, Classical.choice, Quot.sound]
C117_number: depends on axioms: [propext, Classical.choice, Quot.sound]
C117_numbered: depends on axioms: [propext, Classical.choice, Quot.sound]
C117_standard: depends on axioms: [propext, Classical.choice, Quot.sound]
C117_condition_needed: depends on axioms: [propext]
C118_order: depends on axioms: [propext, Classical.choice, Quot.sound]
C118_shadowed: depends on axioms: [propext, Classical.choice, Quot.sound]
C118_none: depends on axioms: [propext, Classical.choice, Quot.sound]
C118_standard: depends on axioms: [propext, Classical.choice, Quot.sound]
C118_custom: depends on axioms: [propext, Classical.choice, Quot.sound]
C118_condition_needed: depends on axioms: [propext]
C119_apart: depends on axioms: [propext, Classical.choice, Quot.sound]
C119_call: depends on axioms: [propext, Classical.choice, Quot.sound]
C119_condition_needed: depends on axioms: [propext, Classical.choice, Quot.sound]
C120_single: depends on axioms: [propext, Classical.choice, Quot.sound]
C120_multiple: depends on axioms: [propext, Classical.choice, Quot.sound]
C120_standard_accepted: depends on axioms: [propext, Classical.choice, Quot.sound]
C120_standard: depends on axioms: [propext, Classical.choice, Quot.sound]
C120_systemd: depends on axioms: [propext, Classical.choice, Quot.sound]
C120_condition_needed: depends on axioms: [propext]
C121_unit: depends on axioms: [propext, Classical.choice, Quot.sound]
C121_unit_behind_delimiter: depends on axioms: [propext, Classical.choice, Quot.sound]
C121_keyword: depends on axioms: [propext, Classical.choice, Quot.sound]
C121_custom: depends on axioms: [propext, Classical.choice, Quot.sound]
C121_condition_needed: depends on axioms: [propext, Classical.choice, Quot.sound]
