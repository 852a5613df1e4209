{
 "claims": [
  {
   "property": "C01",
   "status": "proved",
   "theorems": [
    "Fundu.Props.C01_operators",
    "Fundu.Props.C01_max_min_clamp",
    "Fundu.Props.C01_eq_iff",
    "Fundu.Props.C01_cmp",
    "Fundu.Props.C01_hash"
   ],
   "note": ""
  },
  {
   "property": "C02",
   "status": "proved",
   "theorems": [
    "Fundu.Props.C02_assign",
    "Fundu.Props.C02_sign",
    "Fundu.Props.C02_sign_sub",
    "Fundu.Props.C02_checked_add",
    "Fundu.Props.C02_checked_sub",
    "Fundu.Props.C02_saturating_add",
    "Fundu.Props.C02_saturating_sub",
    "Fundu.Props.C02_add",
    "Fundu.Props.C02_sub"
   ],
   "note": ""
  },
  {
   "property": "C03",
   "status": "proved",
   "theorems": [
    "Fundu.Props.C03_neg",
    "Fundu.Props.C03_abs",
    "Fundu.Props.C03_min_max"
   ],
   "note": ""
  },
  {
   "property": "C04",
   "status": "proved",
   "theorems": [
    "Fundu.Props.C04_as_whole_units",
    "Fundu.Props.C04_subsec",
    "Fundu.Props.C04_as_seconds_millis_micros_nanos"
   ],
   "note": ""
  },
  {
   "property": "C05",
   "status": "proved",
   "theorems": [
    "Fundu.Props.C05_extract",
    "Fundu.Props.C05_extract_chain",
    "Fundu.Props.C05_any_chain"
   ],
   "note": ""
  },
  {
   "property": "C06",
   "status": "proved",
   "theorems": [
    "Fundu.Props.C06_display_parse"
   ],
   "note": ""
  },
  {
   "property": "C07",
   "status": "proved",
   "theorems": [
    "Fundu.Props.C07_to_std",
    "Fundu.Props.C07_std_round_trip",
    "Fundu.Props.C07_saturating_to_std"
   ],
   "note": ""
  },
  {
   "property": "C08",
   "status": "proved",
   "theorems": [
    "Fundu.Props.C08_range",
    "Fundu.Props.C08_to_time",
    "Fundu.Props.C08_of_time",
    "Fundu.Props.C08_time_round_trip",
    "Fundu.Props.C08_saturating_to_time"
   ],
   "note": ""
  },
  {
   "property": "C09",
   "status": "proved",
   "theorems": [
    "Fundu.Props.C09_range",
    "Fundu.Props.C09_to_chrono",
    "Fundu.Props.C09_of_chrono",
    "Fundu.Props.C09_chrono_round_trip",
    "Fundu.Props.C09_saturating_to_chrono"
   ],
   "note": ""
  },
  {
   "property": "C10",
   "status": "proved",
   "theorems": [
    "Fundu.Props.C10_checked_mul",
    "Fundu.Props.C10_value",
    "Fundu.Props.C10_saturating_neg",
    "Fundu.Props.C10_sign"
   ],
   "note": ""
  },
  {
   "property": "C11",
   "status": "proved",
   "theorems": [
    "Fundu.Props.C11_eight_at_once",
    "Fundu.Props.C11_scan_digits"
   ],
   "note": ""
  },
  {
   "property": "C12",
   "status": "proved",
   "theorems": [
    "Fundu.Props.C12_parse_8_digits"
   ],
   "note": ""
  },
  {
   "property": "C13",
   "status": "proved",
   "theorems": [
    "Fundu.Props.C13_strip_zeros"
   ],
   "note": ""
  },
  {
   "property": "C14",
   "status": "proved",
   "theorems": [
    "Fundu.Props.C14_whole"
   ],
   "note": ""
  },
  {
   "property": "C15",
   "status": "proved",
   "theorems": [
    "Fundu.Props.C15_fract"
   ],
   "note": ""
  },
  {
   "property": "C16",
   "status": "proved",
   "theorems": [
    "Fundu.Props.C16_text",
    "Fundu.Props.C16_exact",
    "Fundu.Props.C16_literal"
   ],
   "note": ""
  },
  {
   "property": "C17",
   "status": "proved",
   "theorems": [
    "Fundu.Props.C17_text",
    "Fundu.Props.C17_text_bound",
    "Fundu.Props.C17_exact",
    "Fundu.Props.C17_error_bound",
    "Fundu.Props.C17_literal"
   ],
   "note": "The exact value is reached for unit coefficients +-1 or at most 18 decimal places; otherwise the proved bound holds (finding F2)."
  },
  {
   "property": "C18",
   "status": "proved",
   "theorems": [
    "Fundu.Props.C18_text",
    "Fundu.Props.C18_text_monotone",
    "Fundu.Props.C18_equal_values",
    "Fundu.Props.C18_monotone"
   ],
   "note": ""
  },
  {
   "property": "C19",
   "status": "proved",
   "theorems": [
    "Fundu.Props.C19_text",
    "Fundu.Props.C19_zero",
    "Fundu.Props.C19_tiny_is_zero",
    "Fundu.Props.C19_negative_iff"
   ],
   "note": ""
  },
  {
   "property": "C20",
   "status": "proved",
   "theorems": [
    "Fundu.Props.C20_overflow",
    "Fundu.Props.C20_in_range",
    "Fundu.Props.C20_sequence"
   ],
   "note": ""
  },
  {
   "property": "C21",
   "status": "proved",
   "theorems": [
    "Fundu.Props.C21_infinity",
    "Fundu.Props.C21_disabled",
    "Fundu.Props.C21_multiple"
   ],
   "note": ""
  },
  {
   "property": "C22",
   "status": "proved",
   "theorems": [
    "Fundu.Props.C22_each",
    "Fundu.Props.C22_nonnegative"
   ],
   "note": ""
  },
  {
   "property": "C23",
   "status": "proved",
   "theorems": [
    "Fundu.Props.C23_no_panic",
    "Fundu.Props.C23_only_multiplication_panics"
   ],
   "note": "For UTF-8 texts, ASCII delimiters and tables whose products are representable; C23_only_multiplication_panics says that without the last assumption nothing else can panic."
  },
  {
   "property": "C24",
   "status": "proved",
   "theorems": [
    "Fundu.Props.C24_terminates",
    "Fundu.Props.C24_progress"
   ],
   "note": ""
  },
  {
   "property": "C25",
   "status": "proved",
   "theorems": [
    "Fundu.Props.C25_error_positions"
   ],
   "note": ""
  },
  {
   "property": "C26",
   "status": "proved",
   "theorems": [
    "Fundu.Props.C26_empty"
   ],
   "note": ""
  },
  {
   "property": "C27",
   "status": "proved",
   "theorems": [
    "Fundu.Props.C27_single",
    "Fundu.Props.C27_multiple",
    "Fundu.Props.C27_unambiguous_single",
    "Fundu.Props.C27_unambiguous_multiple"
   ],
   "note": "C27_multiple assumes that inner delimiters are outer delimiters, or that there are no keywords and numerals; without it the code reuses a stale buffer (C33_counterexample)."
  },
  {
   "property": "C28",
   "status": "proved",
   "theorems": [
    "Fundu.Props.C28_fraction",
    "Fundu.Props.C28_exponent",
    "Fundu.Props.C28_no_units",
    "Fundu.Props.C28_unit_delimiter",
    "Fundu.Props.C28_sign_delimiter",
    "Fundu.Props.C28_multiple",
    "Fundu.Props.C28_unit_delimiter_multiple",
    "Fundu.Props.C28_unit_delimiter_rejected",
    "Fundu.Props.C28_sign_delimiter_multiple",
    "Fundu.Props.C28_sign_delimiter_rejected"
   ],
   "note": ""
  },
  {
   "property": "C29",
   "status": "proved",
   "theorems": [
    "Fundu.Props.C29_saturating_sum",
    "Fundu.Props.C29_exact",
    "Fundu.Props.C29_nonnegative",
    "Fundu.Props.C29_order_independent",
    "Fundu.Props.C29_order_matters"
   ],
   "note": "Order independence holds for non-negative durations; C29_order_matters is a proved counterexample otherwise."
  },
  {
   "property": "C30",
   "status": "proved",
   "theorems": [
    "Fundu.Props.C30_ago",
    "Fundu.Props.C30_sign_cancels",
    "Fundu.Props.C30_ago_unit",
    "Fundu.Props.C30_ago_multiple"
   ],
   "note": ""
  },
  {
   "property": "C31",
   "status": "proved",
   "theorems": [
    "Fundu.Props.C31_sequence",
    "Fundu.Props.C31_sequence_value",
    "Fundu.Props.C31_unit_without_number",
    "Fundu.Props.C31_sign_lost",
    "Fundu.Props.C31_keyword",
    "Fundu.Props.C31_unit_value",
    "Fundu.Props.C31_small_exponent"
   ],
   "note": "C31_sign_lost and C31_small_exponent are proved counterexamples outside of the stated range of exponents."
  },
  {
   "property": "C32",
   "status": "proved",
   "theorems": [
    "Fundu.Props.C32_sequence_value",
    "Fundu.Props.C32_numeral",
    "Fundu.Props.C32_numeral_without_unit"
   ],
   "note": ""
  },
  {
   "property": "C33",
   "status": "proved",
   "theorems": [
    "Fundu.Props.C33_buffer_transparent",
    "Fundu.Props.C33_same_delimiters",
    "Fundu.Props.C33_counterexample"
   ],
   "note": "C33_counterexample proves that the restriction on the delimiters is needed."
  },
  {
   "property": "C34",
   "status": "proved",
   "theorems": [
    "Fundu.Props.C34_get",
    "Fundu.Props.C34_current",
    "Fundu.Props.C34_is_empty",
    "Fundu.Props.C34_constructors"
   ],
   "note": ""
  },
  {
   "property": "C35",
   "status": "proved",
   "theorems": [
    "Fundu.Props.C35_standard_setters",
    "Fundu.Props.C35_custom_setters",
    "Fundu.Props.C35_config_builder",
    "Fundu.Props.C35_standard_builder",
    "Fundu.Props.C35_custom_builder",
    "Fundu.Props.C35_custom_tables",
    "Fundu.Props.C35_defaults",
    "Fundu.Props.C35_crates",
    "Fundu.Props.C35_default_config",
    "Fundu.Props.C35_default_units"
   ],
   "note": ""
  },
  {
   "property": "C36",
   "status": "proved",
   "theorems": [
    "Fundu.Props.C36_get",
    "Fundu.Props.C36_resolves",
    "Fundu.Props.C36_sound",
    "Fundu.Props.C36_unique",
    "Fundu.Props.C36_is_empty",
    "Fundu.Props.C36_keywords"
   ],
   "note": ""
  },
  {
   "property": "C37",
   "status": "proved",
   "theorems": [
    "Fundu.Props.C37_get",
    "Fundu.Props.C37_none"
   ],
   "note": ""
  },
  {
   "property": "C38",
   "status": "proved",
   "theorems": [
    "Fundu.Props.C38_bounded",
    "Fundu.Props.C38_negative_max",
    "Fundu.Props.C38_infinity",
    "Fundu.Props.C38_value",
    "Fundu.Props.C38_default_max"
   ],
   "note": ""
  },
  {
   "property": "C39",
   "status": "proved",
   "theorems": [
    "Fundu.Props.C39_gnu",
    "Fundu.Props.C39_systemd",
    "Fundu.Props.C39_trim",
    "Fundu.Props.C39_trim_surround"
   ],
   "note": ""
  },
  {
   "property": "C40",
   "status": "proved",
   "theorems": [
    "Fundu.Props.C40_constructors",
    "Fundu.Props.C40_functions",
    "Fundu.Props.C40_extends",
    "Fundu.Props.C40_same",
    "Fundu.Props.C40_same_functions"
   ],
   "note": ""
  },
  {
   "property": "C41",
   "status": "proved",
   "theorems": [
    "Fundu.Props.C41_no_panic",
    "Fundu.Props.C41_units",
    "Fundu.Props.C41_keywords",
    "Fundu.Props.C41_is_empty",
    "Fundu.Props.C41_numerals",
    "Fundu.Props.C41_unambiguous"
   ],
   "note": ""
  },
  {
   "property": "C42",
   "status": "proved",
   "theorems": [
    "Fundu.Props.C42_date_irrelevant",
    "Fundu.Props.C42_exact_parts",
    "Fundu.Props.C42_errors"
   ],
   "note": ""
  },
  {
   "property": "C43",
   "status": "proved",
   "theorems": [
    "Fundu.Props.C43_relative_date",
    "Fundu.Props.C43_otherwise_overflow",
    "Fundu.Props.C43_reached"
   ],
   "note": "The panic for one single day number (C46) is part of the statement."
  },
  {
   "property": "C44",
   "status": "proved",
   "theorems": [
    "Fundu.Props.C44_spec_epoch",
    "Fundu.Props.C44_spec_next",
    "Fundu.Props.C44_try_from_gregorian",
    "Fundu.Props.C44_panics",
    "Fundu.Props.C44_from_gregorian",
    "Fundu.Props.C44_next"
   ],
   "note": ""
  },
  {
   "property": "C45",
   "status": "proved",
   "theorems": [
    "Fundu.Props.C45_to_gregorian",
    "Fundu.Props.C45_inverse",
    "Fundu.Props.C45_range"
   ],
   "note": ""
  },
  {
   "property": "C46",
   "status": "proved",
   "theorems": [
    "Fundu.Props.C46_to_gregorian"
   ],
   "note": "The property records a defect of the code: one day number panics."
  },
  {
   "property": "C47",
   "status": "proved",
   "theorems": [
    "Fundu.Props.C47_checked_add_duration",
    "Fundu.Props.C47_add_none",
    "Fundu.Props.C47_checked_sub_duration",
    "Fundu.Props.C47_duration_since",
    "Fundu.Props.C47_inverse"
   ],
   "note": ""
  },
  {
   "property": "C48",
   "status": "proved",
   "theorems": [
    "Fundu.Props.C48_reachable",
    "Fundu.Props.C48_as_hmsn",
    "Fundu.Props.C48_no_panic"
   ],
   "note": ""
  },
  {
   "property": "C49",
   "status": "proved",
   "theorems": [
    "Fundu.Props.C49_checked_add_gregorian",
    "Fundu.Props.C49_carry",
    "Fundu.Props.C49_identity",
    "Fundu.Props.C49_months_years"
   ],
   "note": ""
  },
  {
   "property": "C50",
   "status": "proved",
   "theorems": [
    "Fundu.Props.C50_round_trip"
   ],
   "note": ""
  },
  {
   "property": "C51",
   "status": "proved",
   "theorems": [
    "Fundu.Props.C51_floor_div",
    "Fundu.Props.C51_panics"
   ],
   "note": ""
  },
  {
   "property": "C52",
   "status": "proved",
   "theorems": [
    "Fundu.Props.C52_floor_log2",
    "Fundu.Props.C52_floor_log10",
    "Fundu.Props.C52_zero"
   ],
   "note": ""
  },
  {
   "property": "C53",
   "status": "proved",
   "theorems": [
    "Fundu.Props.C53_from_civil",
    "Fundu.Props.C53_leap_second",
    "Fundu.Props.C53_epoch",
    "Fundu.Props.C53_now"
   ],
   "note": "C53_leap_second proves the panic for chrono's leap seconds. External date-times are modelled by their civil fields."
  },
  {
   "property": "C54",
   "status": "proved",
   "theorems": [
    "Fundu.Props.C54_order"
   ],
   "note": ""
  },
  {
   "property": "C55",
   "status": "proved",
   "theorems": [
    "Fundu.Props.C55_number_unit",
    "Fundu.Props.C55_order",
    "Fundu.Props.C55_fraction_unit",
    "Fundu.Props.C55_default_unit"
   ],
   "note": ""
  },
  {
   "property": "C56",
   "status": "proved",
   "theorems": [
    "Fundu.Props.C56_no_panic",
    "Fundu.Props.C56_parse_duration"
   ],
   "note": ""
  },
  {
   "property": "C57",
   "status": "proved",
   "theorems": [
    "Fundu.Props.C57_no_panic"
   ],
   "note": ""
  },
  {
   "property": "C58",
   "status": "proved",
   "theorems": [
    "Fundu.Props.C58_table",
    "Fundu.Props.C58_spans"
   ],
   "note": ""
  },
  {
   "property": "C59",
   "status": "proved",
   "theorems": [
    "Fundu.Props.C59_parse_fuzzy",
    "Fundu.Props.C59_parse_with_date"
   ],
   "note": "The value of the system clock is a parameter."
  },
  {
   "property": "C60",
   "status": "proved",
   "theorems": [
    "Fundu.Props.C60_parse_fuzzy",
    "Fundu.Props.C60_unambiguous",
    "Fundu.Props.C60_range"
   ],
   "note": ""
  },
  {
   "property": "C61",
   "status": "proved",
   "theorems": [
    "Fundu.Props.C61_sentence",
    "Fundu.Props.C61_number",
    "Fundu.Props.C61_fraction_only_with_seconds"
   ],
   "note": ""
  },
  {
   "property": "C62",
   "status": "proved",
   "theorems": [
    "Fundu.Props.C62_case",
    "Fundu.Props.C62_with_date"
   ],
   "note": ""
  },
  {
   "property": "C63",
   "status": "proved",
   "theorems": [
    "Fundu.Props.C63_multiple_exact",
    "Fundu.Props.C63_single_multiple_exact",
    "Fundu.Props.C63_standard_exact",
    "Fundu.Props.C63_single",
    "Fundu.Props.C63_multiple",
    "Fundu.Props.C63_single_multiple",
    "Fundu.Props.C63_standard",
    "Fundu.Props.C63_standard_multiple"
   ],
   "note": ""
  },
  {
   "property": "C64",
   "status": "proved",
   "theorems": [
    "Fundu.Props.C64_single",
    "Fundu.Props.C64_multiple_or",
    "Fundu.Props.C64_multiple"
   ],
   "note": ""
  },
  {
   "property": "C65",
   "status": "proved",
   "theorems": [
    "Fundu.Props.C65_default_multiplier",
    "Fundu.Props.C65_outer_delimiter",
    "Fundu.Props.C65_inner_delimiter",
    "Fundu.Props.C65_default_unit"
   ],
   "note": ""
  },
  {
   "property": "C66",
   "status": "proved",
   "theorems": [
    "Fundu.Props.C66_errors",
    "Fundu.Props.C66_standard",
    "Fundu.Props.C66_custom",
    "Fundu.Props.C66_systemd",
    "Fundu.Props.C66_systemd_nanos",
    "Fundu.Props.C66_gnu_fuzzy",
    "Fundu.Props.C66_gnu"
   ],
   "note": ""
  },
  {
   "property": "C67",
   "status": "proved",
   "theorems": [
    "Fundu.Props.C67_conversion_messages",
    "Fundu.Props.C67_messages",
    "Fundu.Props.C67_reasons",
    "Fundu.Props.C67_column",
    "Fundu.Props.C67_text",
    "Fundu.Props.C67_text_systemd",
    "Fundu.Props.C67_text_gnu",
    "Fundu.Props.C67_quotes",
    "Fundu.Props.C67_conversion"
   ],
   "note": ""
  },
  {
   "property": "C68",
   "status": "proved",
   "theorems": [
    "Fundu.Props.C68_durations",
    "Fundu.Props.C68_durations_conjunction",
    "Fundu.Props.C68_sum",
    "Fundu.Props.C68_sum_conjunction",
    "Fundu.Props.C68_exact",
    "Fundu.Props.C68_numbers_follow",
    "Fundu.Props.C68_systemd",
    "Fundu.Props.C68_saturating_add",
    "Fundu.Props.C68_append",
    "Fundu.Props.C68_systemd_exact"
   ],
   "note": ""
  },
  {
   "property": "C69",
   "status": "proved",
   "theorems": [
    "Fundu.Props.C69_same_table",
    "Fundu.Props.C69_custom_is_standard",
    "Fundu.Props.C69_default_lists",
    "Fundu.Props.C69_systemd_list",
    "Fundu.Props.C69_systemd_table"
   ],
   "note": ""
  },
  {
   "property": "C70",
   "status": "proved",
   "theorems": [
    "Fundu.Props.C70_limits",
    "Fundu.Props.C70_default",
    "Fundu.Props.C70_eq",
    "Fundu.Props.C70_equal_units"
   ],
   "note": ""
  },
  {
   "property": "C71",
   "status": "proved",
   "theorems": [
    "Fundu.Props.C71_single",
    "Fundu.Props.C71_multiple",
    "Fundu.Props.C71_unique",
    "Fundu.Props.C71_unique_multiple",
    "Fundu.Props.C71_duration_or_mistake",
    "Fundu.Props.C71_durations_or_mistake",
    "Fundu.Props.C71_fraction",
    "Fundu.Props.C71_exponent",
    "Fundu.Props.C71_no_units",
    "Fundu.Props.C71_standard_single",
    "Fundu.Props.C71_standard_multiple",
    "Fundu.Props.C71_custom_single",
    "Fundu.Props.C71_custom_multiple",
    "Fundu.Props.C71_systemd",
    "Fundu.Props.C71_reported",
    "Fundu.Props.C71_never"
   ],
   "note": ""
  },
  {
   "property": "C72",
   "status": "proved",
   "theorems": [
    "Fundu.Props.C72_constructors",
    "Fundu.Props.C72_every"
   ],
   "note": ""
  },
  {
   "property": "C73",
   "status": "proved",
   "theorems": [
    "Fundu.Props.C73_is_empty",
    "Fundu.Props.C73_get",
    "Fundu.Props.C73_empty_knows_nothing"
   ],
   "note": ""
  },
  {
   "property": "C74",
   "status": "proved",
   "theorems": [
    "Fundu.Props.C74_of_date",
    "Fundu.Props.C74_of_instant",
    "Fundu.Props.C74_monotone",
    "Fundu.Props.C74_to_gregorian"
   ],
   "note": ""
  },
  {
   "property": "C75",
   "status": "proved",
   "theorems": [
    "Fundu.Props.C75_relative_or_mistake",
    "Fundu.Props.C75_parse_fuzzy",
    "Fundu.Props.C75_unique",
    "Fundu.Props.C75_parse_with_date",
    "Fundu.Props.C75_reasons",
    "Fundu.Props.C75_empty",
    "Fundu.Props.C75_only_seconds"
   ],
   "note": ""
  },
  {
   "property": "C76",
   "status": "proved",
   "theorems": [
    "Fundu.Props.C76_written",
    "Fundu.Props.C76_every_duration",
    "Fundu.Props.C76_injective",
    "Fundu.Props.C76_parse_duration"
   ],
   "note": ""
  },
  {
   "property": "C77",
   "status": "proved",
   "theorems": [
    "Fundu.Props.C77_plus_single",
    "Fundu.Props.C77_plus_multiple",
    "Fundu.Props.C77_minus",
    "Fundu.Props.C77_standard",
    "Fundu.Props.C77_minus_multiple"
   ],
   "note": ""
  },
  {
   "property": "C78",
   "status": "proved",
   "theorems": [
    "Fundu.Props.C78_custom",
    "Fundu.Props.C78_phrases",
    "Fundu.Props.C78_exact",
    "Fundu.Props.C78_standard",
    "Fundu.Props.C78_conjunction_after_plain_number"
   ],
   "note": ""
  },
  {
   "property": "C79",
   "status": "proved",
   "theorems": [
    "Fundu.Props.C79_accepted_matches",
    "Fundu.Props.C79_matches_accepted",
    "Fundu.Props.C79_without_exponent",
    "Fundu.Props.C79_standard",
    "Fundu.Props.C79_custom",
    "Fundu.Props.C79_fuzz_target"
   ],
   "note": ""
  },
  {
   "property": "C80",
   "status": "proved",
   "theorems": [
    "Fundu.Props.C80_number",
    "Fundu.Props.C80_infinity",
    "Fundu.Props.C80_rejected",
    "Fundu.Props.C80_nan"
   ],
   "note": ""
  },
  {
   "property": "C81",
   "status": "proved",
   "theorems": [
    "Fundu.Props.C81_single",
    "Fundu.Props.C81_texts",
    "Fundu.Props.C81_one_gap",
    "Fundu.Props.C81_standard",
    "Fundu.Props.C81_systemd",
    "Fundu.Props.C81_gnu"
   ],
   "note": ""
  },
  {
   "property": "C82",
   "status": "proved",
   "theorems": [
    "Fundu.Props.C82_parts",
    "Fundu.Props.C82_joined",
    "Fundu.Props.C82_exact",
    "Fundu.Props.C82_sum"
   ],
   "note": ""
  },
  {
   "property": "C83",
   "status": "proved",
   "theorems": [
    "Fundu.Props.C83_duration",
    "Fundu.Props.C83_duration_seq",
    "Fundu.Props.C83_duration_fields",
    "Fundu.Props.C83_duration_valid",
    "Fundu.Props.C83_duration_accepted",
    "Fundu.Props.C83_field",
    "Fundu.Props.C83_seq_length",
    "Fundu.Props.C83_fields_once",
    "Fundu.Props.C83_fields_order",
    "Fundu.Props.C83_time_unit",
    "Fundu.Props.C83_time_unit_only",
    "Fundu.Props.C83_stored_units",
    "Fundu.Props.C83_multiplier",
    "Fundu.Props.C83_multiplier_valid",
    "Fundu.Props.C83_julian_day",
    "Fundu.Props.C83_date_time",
    "Fundu.Props.C83_date_time_fields",
    "Fundu.Props.C83_conversion_error",
    "Fundu.Props.C83_parse_error",
    "Fundu.Props.C83_parse_error_injective",
    "Fundu.Props.C83_stored_errors",
    "Fundu.Props.C83_stored_fields"
   ],
   "note": ""
  },
  {
   "property": "C84",
   "status": "proved",
   "theorems": [
    "Fundu.Props.C84_matches_accepted",
    "Fundu.Props.C84_accepted_matches",
    "Fundu.Props.C84_parse",
    "Fundu.Props.C84_iff"
   ],
   "note": ""
  },
  {
   "property": "C85",
   "status": "proved",
   "theorems": [
    "Fundu.Props.C85_systemd_human",
    "Fundu.Props.C85_systemd_main",
    "Fundu.Props.C85_systemd_again",
    "Fundu.Props.C85_systemd_crate",
    "Fundu.Props.C85_units",
    "Fundu.Props.C85_gnu_human",
    "Fundu.Props.C85_gnu_main",
    "Fundu.Props.C85_gnu_again",
    "Fundu.Props.C85_gnu_nothing",
    "Fundu.Props.C85_custom_column",
    "Fundu.Props.C85_custom_main",
    "Fundu.Props.C85_convert_main",
    "Fundu.Props.C85_simple_main",
    "Fundu.Props.C85_clap_main",
    "Fundu.Props.C85_chrono_main"
   ],
   "note": ""
  },
  {
   "property": "C86",
   "status": "proved",
   "theorems": [
    "Fundu.Props.C86_multiple_exact",
    "Fundu.Props.C86_custom_exact",
    "Fundu.Props.C86_single",
    "Fundu.Props.C86_multiple",
    "Fundu.Props.C86_custom",
    "Fundu.Props.C86_condition_needed"
   ],
   "note": ""
  },
  {
   "property": "C87",
   "status": "proved",
   "theorems": [
    "Fundu.Props.C87_custom",
    "Fundu.Props.C87_permutation",
    "Fundu.Props.C87_standard",
    "Fundu.Props.C87_condition_needed"
   ],
   "note": ""
  },
  {
   "property": "C88",
   "status": "proved",
   "theorems": [
    "Fundu.Props.C88_single",
    "Fundu.Props.C88_multiple",
    "Fundu.Props.C88_without_time_units",
    "Fundu.Props.C88_custom",
    "Fundu.Props.C88_identifiers_case_sensitive"
   ],
   "note": ""
  },
  {
   "property": "C89",
   "status": "proved",
   "theorems": [
    "Fundu.Props.C89_unused_single",
    "Fundu.Props.C89_unused_multiple",
    "Fundu.Props.C89_used_behind_number",
    "Fundu.Props.C89_used_behind_delimiter",
    "Fundu.Props.C89_used_alone",
    "Fundu.Props.C89_used_keyword",
    "Fundu.Props.C89_digit_unused",
    "Fundu.Props.C89_exponent_unused"
   ],
   "note": ""
  },
  {
   "property": "C90",
   "status": "proved",
   "theorems": [
    "Fundu.Props.C90_opposite",
    "Fundu.Props.C90_exists",
    "Fundu.Props.C90_standard"
   ],
   "note": ""
  },
  {
   "property": "C91",
   "status": "proved",
   "theorems": [
    "Fundu.Props.C91_opposite",
    "Fundu.Props.C91_exact",
    "Fundu.Props.C91_exists"
   ],
   "note": ""
  },
  {
   "property": "C92",
   "status": "proved",
   "theorems": [
    "Fundu.Props.C92_value",
    "Fundu.Props.C92_error",
    "Fundu.Props.C92_complete",
    "Fundu.Props.C92_functions"
   ],
   "note": ""
  },
  {
   "property": "C93",
   "status": "proved",
   "theorems": [
    "Fundu.Props.C93_single",
    "Fundu.Props.C93_multiple",
    "Fundu.Props.C93_unwrap",
    "Fundu.Props.C93_kinds",
    "Fundu.Props.C93_numeral",
    "Fundu.Props.C93_custom",
    "Fundu.Props.C93_kinds_multiple"
   ],
   "note": ""
  },
  {
   "property": "C94",
   "status": "proved",
   "theorems": [
    "Fundu.Props.C94_written",
    "Fundu.Props.C94_every",
    "Fundu.Props.C94_injective",
    "Fundu.Props.C94_duration"
   ],
   "note": ""
  },
  {
   "property": "C95",
   "status": "proved",
   "theorems": [
    "Fundu.Props.C95_exact",
    "Fundu.Props.C95_months",
    "Fundu.Props.C95_years",
    "Fundu.Props.C95_monotone",
    "Fundu.Props.C95_same_month",
    "Fundu.Props.C95_repeats",
    "Fundu.Props.C95_add_gregorian",
    "Fundu.Props.C95_later_date"
   ],
   "note": ""
  },
  {
   "property": "C96",
   "status": "proved",
   "theorems": [
    "Fundu.Props.C96_durations",
    "Fundu.Props.C96_duration",
    "Fundu.Props.C96_standard",
    "Fundu.Props.C96_standard_single",
    "Fundu.Props.C96_custom",
    "Fundu.Props.C96_exponent_alone",
    "Fundu.Props.C96_deviations"
   ],
   "note": ""
  },
  {
   "property": "C97",
   "status": "proved",
   "theorems": [
    "Fundu.Props.C97_order",
    "Fundu.Props.C97_order_signed",
    "Fundu.Props.C97_systemd",
    "Fundu.Props.C97_gnu",
    "Fundu.Props.C97_order_matters"
   ],
   "note": ""
  },
  {
   "property": "C98",
   "status": "proved",
   "theorems": [
    "Fundu.Props.C98_display_exact",
    "Fundu.Props.C98_seconds",
    "Fundu.Props.C98_every",
    "Fundu.Props.C98_display",
    "Fundu.Props.C98_display_rejected",
    "Fundu.Props.C98_display_zero"
   ],
   "note": ""
  },
  {
   "property": "C99",
   "status": "proved",
   "theorems": [
    "Fundu.Props.C99_sign",
    "Fundu.Props.C99_exact",
    "Fundu.Props.C99_same",
    "Fundu.Props.C99_negative_zero"
   ],
   "note": ""
  },
  {
   "property": "C100",
   "status": "proved",
   "theorems": [
    "Fundu.Props.C100_single",
    "Fundu.Props.C100_multiple",
    "Fundu.Props.C100_systemd",
    "Fundu.Props.C100_gnu"
   ],
   "note": ""
  },
  {
   "property": "C101",
   "status": "proved",
   "theorems": [
    "Fundu.Props.C101_tables",
    "Fundu.Props.C101_custom_table",
    "Fundu.Props.C101_parts",
    "Fundu.Props.C101_exact",
    "Fundu.Props.C101_agree"
   ],
   "note": ""
  },
  {
   "property": "C102",
   "status": "proved",
   "theorems": [
    "Fundu.Props.C102_current_byte",
    "Fundu.Props.C102_buffer",
    "Fundu.Props.C102_refines"
   ],
   "note": ""
  },
  {
   "property": "C103",
   "status": "proved",
   "theorems": [
    "Fundu.Props.C103_same",
    "Fundu.Props.C103_single",
    "Fundu.Props.C103_linear",
    "Fundu.Props.C103_systemd",
    "Fundu.Props.C103_gnu_same",
    "Fundu.Props.C103_gnu",
    "Fundu.Props.C103_condition"
   ],
   "note": ""
  },
  {
   "property": "C104",
   "status": "proved",
   "theorems": [
    "Fundu.Props.C104_bytes",
    "Fundu.Props.C104_text",
    "Fundu.Props.C104_custom",
    "Fundu.Props.C104_standard",
    "Fundu.Props.C104_option_standard",
    "Fundu.Props.C104_option_custom",
    "Fundu.Props.C104_option_needed",
    "Fundu.Props.C104_condition_needed"
   ],
   "note": ""
  },
  {
   "property": "C105",
   "status": "proved",
   "theorems": [
    "Fundu.Props.C105_alphabet",
    "Fundu.Props.C105_default",
    "Fundu.Props.C105_systemd",
    "Fundu.Props.C105_gnu"
   ],
   "note": ""
  },
  {
   "property": "C106",
   "status": "proved",
   "theorems": [
    "Fundu.Props.C106_ends",
    "Fundu.Props.C106_delimiters"
   ],
   "note": ""
  },
  {
   "property": "C107",
   "status": "proved",
   "theorems": [
    "Fundu.Props.C107_table",
    "Fundu.Props.C107_agree",
    "Fundu.Props.C107_same",
    "Fundu.Props.C107_more",
    "Fundu.Props.C107_converse"
   ],
   "note": ""
  },
  {
   "property": "C108",
   "status": "proved",
   "theorems": [
    "Fundu.Props.C108_texts",
    "Fundu.Props.C108_standard",
    "Fundu.Props.C108_systemd",
    "Fundu.Props.C108_gnu",
    "Fundu.Props.C108_same_value",
    "Fundu.Props.C108_condition_needed"
   ],
   "note": ""
  },
  {
   "property": "C109",
   "status": "proved",
   "theorems": [
    "Fundu.Props.C109_pieces",
    "Fundu.Props.C109_nonnegative",
    "Fundu.Props.C109_standard",
    "Fundu.Props.C109_systemd",
    "Fundu.Props.C109_gnu"
   ],
   "note": ""
  },
  {
   "property": "C110",
   "status": "proved",
   "theorems": [
    "Fundu.Props.C110_from_gregorian",
    "Fundu.Props.C110_to_gregorian",
    "Fundu.Props.C110_date_times",
    "Fundu.Props.C110_add_duration",
    "Fundu.Props.C110_add_years",
    "Fundu.Props.C110_add_months"
   ],
   "note": ""
  },
  {
   "property": "C111",
   "status": "proved",
   "theorems": [
    "Fundu.Props.C111_smaller",
    "Fundu.Props.C111_accepted",
    "Fundu.Props.C111_standard",
    "Fundu.Props.C111_systemd",
    "Fundu.Props.C111_gnu_accepted",
    "Fundu.Props.C111_gnu_smaller",
    "Fundu.Props.C111_condition_needed"
   ],
   "note": ""
  },
  {
   "property": "C112",
   "status": "proved",
   "theorems": [
    "Fundu.Props.C112_commutative",
    "Fundu.Props.C112_associative",
    "Fundu.Props.C112_inverse",
    "Fundu.Props.C112_subtraction",
    "Fundu.Props.C112_negation",
    "Fundu.Props.C112_monotone",
    "Fundu.Props.C112_saturating",
    "Fundu.Props.C112_limits",
    "Fundu.Props.C112_conversions"
   ],
   "note": ""
  },
  {
   "property": "C113",
   "status": "proved",
   "theorems": [
    "Fundu.Props.C113_which",
    "Fundu.Props.C113_display",
    "Fundu.Props.C113_accessors",
    "Fundu.Props.C113_arithmetic",
    "Fundu.Props.C113_dates",
    "Fundu.Props.C113_zeros"
   ],
   "note": ""
  },
  {
   "property": "C114",
   "status": "proved",
   "theorems": [
    "Fundu.Props.C114_durations",
    "Fundu.Props.C114_inverse",
    "Fundu.Props.C114_since",
    "Fundu.Props.C114_months"
   ],
   "note": ""
  },
  {
   "property": "C115",
   "status": "proved",
   "theorems": [
    "Fundu.Props.C115_gnu",
    "Fundu.Props.C115_errors",
    "Fundu.Props.C115_errors_conjunction",
    "Fundu.Props.C115_accepted",
    "Fundu.Props.C115_systemd"
   ],
   "note": ""
  },
  {
   "property": "C116",
   "status": "proved",
   "theorems": [
    "Fundu.Props.C116_single",
    "Fundu.Props.C116_multiple",
    "Fundu.Props.C116_never_negative",
    "Fundu.Props.C116_errors",
    "Fundu.Props.C116_standard",
    "Fundu.Props.C116_systemd",
    "Fundu.Props.C116_condition_needed"
   ],
   "note": ""
  },
  {
   "property": "C117",
   "status": "proved",
   "theorems": [
    "Fundu.Props.C117_single",
    "Fundu.Props.C117_multiple",
    "Fundu.Props.C117_number",
    "Fundu.Props.C117_numbered",
    "Fundu.Props.C117_standard",
    "Fundu.Props.C117_condition_needed"
   ],
   "note": ""
  },
  {
   "property": "C118",
   "status": "proved",
   "theorems": [
    "Fundu.Props.C118_order",
    "Fundu.Props.C118_shadowed",
    "Fundu.Props.C118_none",
    "Fundu.Props.C118_standard",
    "Fundu.Props.C118_custom",
    "Fundu.Props.C118_condition_needed"
   ],
   "note": ""
  },
  {
   "property": "C119",
   "status": "proved",
   "theorems": [
    "Fundu.Props.C119_apart",
    "Fundu.Props.C119_call",
    "Fundu.Props.C119_condition_needed"
   ],
   "note": ""
  },
  {
   "property": "C120",
   "status": "proved",
   "theorems": [
    "Fundu.Props.C120_single",
    "Fundu.Props.C120_multiple",
    "Fundu.Props.C120_standard_accepted",
    "Fundu.Props.C120_standard",
    "Fundu.Props.C120_systemd",
    "Fundu.Props.C120_condition_needed"
   ],
   "note": ""
  },
  {
   "property": "C121",
   "status": "proved",
   "theorems": [
    "Fundu.Props.C121_unit",
    "Fundu.Props.C121_unit_behind_delimiter",
    "Fundu.Props.C121_keyword",
    "Fundu.Props.C121_custom",
    "Fundu.Props.C121_condition_needed"
   ],
   "note": ""
  }
 ]
}