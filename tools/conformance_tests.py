# What each test function of the project asserts, as a Lean function of its case; read by conformance.py.
# FILES: (module, path, Lean declarations, {test: (type of a case, Lean function)}, {test without cases: Lean expression})
ND = 'fun (s, d) => '
STD_PRE = '''
/-- parser_test.rs: `DurationParser::builder().default_time_units()...` -/
def single : DurationParser := DurationParserBuilder.new.defaultTimeUnits.build
def multiple : DurationParser := (DurationParserBuilder.new.defaultTimeUnits.parseMultiple (some [b! "and"])).build
def allUnits : DurationParser := DurationParser.withAllTimeUnits
def allNegative : DurationParser := DurationParser.withAllTimeUnits.allowNegative true
def space : Delimiter := fun b => b = 32
def mu : Delimiter := fun b => b = 0xb5
def allMultiple : DurationParserBuilder := DurationParserBuilder.new.allTimeUnits.parseMultiple (some [b! "and"])
def nsAndSeconds : List CustomTimeUnit :=
  [CustomTimeUnit.withDefault .nanoSecond [b! "ns"], CustomTimeUnit.withDefault .second [b! "s", b! "second"]]
def keyword (w : Bytes) (n : Int) : TimeKeyword := get (TimeKeyword.new .day [w] (some ⟨n, 0⟩))
def custom : CustomDurationParserBuilder := CustomDurationParserBuilder.new
def ago : CustomDurationParserBuilder :=
  (custom.addTimeUnits SYSTEMD_TIME_UNITS).allowTimeUnitDelimiter.allowAgo.allowNegative
def muUnit : CustomTimeUnit := CustomTimeUnit.withDefault .microSecond [b! "µ"]
'''
STDOK = 'fun (s, d) => match parseDuration s with | .ok x => x = d | _ => false'
FILES = [
('Parser', 'fundu/tests/parser_test.rs', STD_PRE, {
 'test_parse_duration_with_illegal_argument_then_error': ('Bytes', 'fun s => isErr (single.parse s) && isErr (multiple.parse s)'),
 'test_parse_duration_when_simple_arguments_are_valid': ('(Bytes × Duration)', ND+'okIs (single.parse s) d && okIs (multiple.parse s) d'),
 'test_parse_duration_when_arguments_contain_exponent': ('(Bytes × Duration)', ND+'okIs (allNegative.parse s) d'),
 'test_parse_duration_when_arguments_with_illegal_exponent_then_error': ('Bytes', 'fun s => isErr (DurationParserBuilder.new.allTimeUnits.build.parse s)'),
 'test_parse_duration_when_precision_of_float_would_be_insufficient_then_still_parse_exact': ('(Bytes × StdDuration)', STDOK),
 'test_parse_duration_when_arguments_are_capped_then_max_duration_or_min_nanos': ('(Bytes × StdDuration)', STDOK),
 'test_parse_duration_when_arguments_have_a_sign': ('(Bytes × StdDuration)', STDOK),
 'test_parse_duration_when_arguments_are_infinity_values': ('Bytes', 'fun s => match parseDuration s with | .ok x => x = StdDuration.MAX | _ => false'),
 'test_parse_duration_when_arguments_are_illegal_infinity_values_then_error': ('(Bytes × Err)', 'fun (s, e) => errIs (parseDuration s) e'),
 'test_parse_duration_when_time_units_are_given': ('(Bytes × Duration)', ND+'okIs (allNegative.parse s) d'),
 'test_parser_when_time_units': ('(Bytes × List TimeUnit)', 'fun (s, u) => (DurationParser.withTimeUnits u |>.parse s).isOk'),
 'test_parser_when_time_units_are_not_present_then_error': ('(Bytes × List TimeUnit)', 'fun (s, u) => isErr (DurationParser.withTimeUnits u |>.parse s)'),
 'test_parser_when_allow_time_unit_delimiter_then_error': ('(Bytes × Err)', 'fun (s, e) => errIs (((allUnits.allowTimeUnitDelimiter true).setInnerDelimiter space).parse s) e'),
 'test_parser_when_allow_time_unit_delimiter': ('(Bytes × Delimiter × Duration)', 'fun (s, i, d) => okIs (((allUnits.allowTimeUnitDelimiter true).setInnerDelimiter i).parse s) d'),
 'test_parser_when_allow_delimiter_then_ok': ('(Bytes × Duration)', ND+'okIs (((allUnits.allowTimeUnitDelimiter true).setInnerDelimiter space).parse s) d'),
 'test_parser_when_number_is_optional': ('(Bytes × Except Err Duration)', 'fun (s, r) => resultIs ((allUnits.numberIsOptional true).parse s) r'),
 'test_parser_when_number_is_optional_and_allow_delimiter_then_error': ('(Bytes × Err)', 'fun (s, e) => errIs (((allUnits.numberIsOptional true).allowTimeUnitDelimiter true).parse s) e'),
 'test_parser_when_disable_fraction': ('(Bytes × Except Err Duration)', 'fun (s, r) => resultIs ((allUnits.disableFraction true).parse s) r'),
 'test_parser_when_disable_exponent': ('(Bytes × Except Err Duration)', 'fun (s, r) => resultIs ((allUnits.disableExponent true).parse s) r'),
 'test_parser_when_disable_infinity': ('(Bytes × Except Err Duration)', 'fun (s, r) => resultIs ((allUnits.disableInfinity true).parse s) r'),
 'test_parser_when_custom_time_unit_then_error': ('(Bytes × TimeUnit)', 'fun (s, u) => isErr ((DurationParser.withTimeUnits [u]).parse s)'),
 'test_parse_error_messages': ('(DurationParser × Bytes × Err × Bytes)', 'fun (p, s, e, t) => errIs (p.parse s) e && (match p.parse s with | .error (.err x) => x.display = t | _ => false)'),
 'test_parser_setting_default_time_unit': ('(TimeUnit × Duration)', 'fun (u, d) => okIs ((DurationParser.withoutTimeUnits.defaultUnit u).parse (b! "1")) d'),
 'test_parser_when_setting_parse_multiple': ('(Bytes × Duration)', ND+'okIs (allMultiple.allowNegative.build.parse s) d'),
 'test_parser_when_setting_parse_multiple_then_error': ('(Bytes × Err)', 'fun (s, e) => errIs (allMultiple.build.parse s) e'),
 'test_parser_when_parse_multiple_number_is_optional_allow_delimiter': ('(Bytes × Except Err Duration)', 'fun (s, r) => resultIs (allMultiple.numberIsOptional.allowTimeUnitDelimiter.build.parse s) r'),
 'test_parser_when_parse_multiple_with_sign_delimiter': ('(Bytes × Except Err Duration)', 'fun (s, r) => resultIs (allMultiple.allowTimeUnitDelimiter.allowSignDelimiter.allowNegative.build.parse s) r'),
 'test_parser_when_parse_multiple_without_time_units': ('(Bytes × Except Err Duration)', 'fun (s, r) => resultIs ((custom.parseMultiple (some [b! "and"])).allowAgo.build.parse s) r'),
 'test_custom_duration_parser_parse_when_systemd_time_units': ('(List Bytes × Duration)', 'fun (l, d) => l.all fun s => okIs ((CustomDurationParser.withTimeUnits SYSTEMD_TIME_UNITS).parse (b! "1" ++ s)) d'),
 'test_parse_negative': ('(Bytes × Duration)', ND+'okIs (allNegative.parse s) d'),
 'test_parse_negative_when_multiple': ('(Bytes × Duration)', ND+'okIs (allMultiple.allowNegative.build.parse s) d'),
 'test_custom_parser_when_disable_infinity_then_no_problems_with_infinity_like_ids': ('(Bytes × Bytes)', 'fun (i, s) => okIs ((custom.disableInfinity.numberIsOptional.addTimeUnits [CustomTimeUnit.withDefault .nanoSecond [i]]).build.parse s) ⟨false, ⟨0, 1⟩⟩'),
 'test_custom_parser_when_negative_multiplier': ('(Bytes × Duration)', ND+'okIs ((custom.timeUnit (get (CustomTimeUnit.new .second [b! "s"] (some ⟨-1, 0⟩)))).allowNegative.build.parse s) d'),
 'test_custom_parser_when_multiplier_is_zero': ('Bytes', 'fun s => okIs ((custom.timeUnit (get (CustomTimeUnit.new .second [b! "s"] (some ⟨0, 0⟩)))).allowNegative.build.parse s) Duration.ZERO'),
 'test_custom_parser_with_keywords': ('(Bytes × Duration)', ND+'okIs (((((custom.keyword (keyword (b! "yesterday") (-1))).keyword (keyword (b! "tomorrow") 1)).keyword (keyword (b! "today") 0)).addTimeUnits nsAndSeconds).allowNegative.build.parse s) d'),
 'test_custom_parser_with_keywords_then_error': ('(Bytes × Err)', 'fun (s, e) => errIs (((custom.keyword (keyword (b! "tomorrow") 1)).addTimeUnits nsAndSeconds).build.parse s) e'),
 'test_custom_parser_with_keywords_when_parse_multiple': ('(Bytes × Duration)', ND+'okIs (((((custom.keyword (keyword (b! "yesterday") (-1))).keyword (keyword (b! "tomorrow") 1)).addTimeUnits nsAndSeconds).parseMultiple (some [b! "and"])).allowNegative.build.parse s) d'),
 'test_custom_parser_with_keywords_when_parse_multiple_and_number_is_optional': ('(Bytes × Duration)', ND+'okIs ((((custom.keyword (keyword (b! "tomorrow") 1)).addTimeUnits nsAndSeconds).parseMultiple (some [b! "and"])).numberIsOptional.build.parse s) d'),
 'test_custom_parser_multiplier_when_number_is_optional_and_time_unit_without_number': ('(Multiplier × Duration)', 'fun (m, d) => okIs ((custom.timeUnit (get (CustomTimeUnit.new .second [b! "my"] (some m)))).numberIsOptional.allowNegative.build.parse (b! "my")) d'),
 'test_custom_parser_with_allow_ago': ('(Bytes × Duration)', ND+'okIs (ago.build.parse s) d'),
 'test_custom_parser_with_allow_ago_then_error': ('(Bytes × Err)', 'fun (s, e) => errIs (ago.build.parse s) e'),
 'test_custom_parser_with_allow_ago_when_parse_multiple': ('(Bytes × Duration)', ND+'okIs ((ago.parseMultiple (some [b! "and"])).build.parse s) d'),
 }, {
 'test_parser_when_parse_multiple_number_is_optional_not_allow_delimiter': 'okIs (allMultiple.numberIsOptional.build.parse (b! "1 ns 1 s")) ⟨false, ⟨3, 1⟩⟩',
 'test_parser_when_parse_multiple_with_invalid_delimiter': ('The test hands a word that is not valid UTF-8 to `from_utf8_unchecked` (finding F10): the model reports the broken contract instead of the result of the run', 'panics (((custom.timeUnit muUnit).parseMultiple none).outerDelimiter mu |>.build.parse (b! "1µ"))'),
 'test_parser_when_allow_ago_with_invalid_delimiter': ('The test hands a word that is not valid UTF-8 to `from_utf8_unchecked` (finding F10): the model reports the broken contract instead of the result of the run', 'panics (((custom.timeUnit muUnit).allowAgo).innerDelimiter mu |>.build.parse (b! "1µ ago"))'),
 'test_parser_parse_multiple_and_keywords_with_invalid_delimiter': ('The test hands a word that is not valid UTF-8 to `from_utf8_unchecked` (finding F10): the model reports the broken contract instead of the result of the run', 'panics ((((custom.timeUnit muUnit).keyword (get (TimeKeyword.new .microSecond [b! "manµ"] none))).parseMultiple none).outerDelimiter mu |>.build.parse (b! "someµ"))'),
 'test_parser_when_parse_multiple_without_time_units_default_unit_is_not_seconds': 'okIs (((DurationParserBuilder.new.parseMultiple (some [b! "and"])).defaultUnit .nanoSecond).build.parse (b! "1 1")) ⟨false, ⟨0, 2⟩⟩',
 'test_custom_parser_with_negative_keyword_when_not_allow_negative_then_error': 'errIs ((custom.keyword (keyword (b! "yesterday") (-1))).build.parse (b! "yesterday")) .negativeNumber',
 }),
('Gnu', 'fundu-gnu/tests/test_relative_time_parser.rs', '''
/-- The time of the system; no test here depends on it -/
def now : DateTime := DateTime.UNIX_EPOCH
def rtp : Gnu.RelativeTimeParser := Gnu.RelativeTimeParser.new
def epoch : DateTime := get (DateTime.fromGregorianDateTime 1970 8 1 0 0 0 0)
def upper (s : Bytes) : Bytes := s.map fun b => if decide (97 ≤ b.toNat) && decide (b.toNat ≤ 122) then b - 32 else b
''', {
 'test_parser_parse_valid_input': ('(Bytes × Duration)', ND+'okIs (rtp.parse now s) d && okIs (Gnu.parse now s) d'),
 'test_parser_parse_invalid_input': ('(Bytes × Err)', 'fun (s, e) => errIs (rtp.parse now s) e && errIs (Gnu.parse now s) e'),
 'test_parser_parse_with_invalid_time_units': ('(Bytes × Err)', 'fun (s, e) => errIs (rtp.parse now s) e'),
 'test_parser_parse_with_valid_time_units_blank': ('(List Bytes × Duration)', 'fun (l, d) => l.all fun s => okIs (rtp.parse now s) d'),
 'test_parser_parse_with_valid_time_units_uppercase': ('(List Bytes × Duration)', 'fun (l, d) => l.all fun s => okIs (rtp.parse now (upper s)) d'),
 'test_parser_parse_with_valid_time_units_with_number': ('(List Bytes × Duration)', 'fun (l, d) => l.all fun s => okIs (rtp.parse now (b! "1" ++ s)) d'),
 'test_parser_parse_with_just_time_unit_when_ago_or_negative': ('(Bytes × Duration)', ND+'okIs (rtp.parse now s) d'),
 'test_parser_parse_with_date_when_valid_fuzzy_time_units': ('(List Bytes × DateTime × Duration)', 'fun (l, t, d) => l.all fun s => okIs (rtp.parseWithDate now s (some t)) d && okIs (Gnu.parseWithDate now s (some t)) d'),
 'test_parser_parse_with_date_when_fuzzy': ('(Bytes × DateTime × Duration)', 'fun (s, t, d) => okIs (rtp.parseWithDate now s (some t)) d && okIs (Gnu.parseWithDate now s (some t)) d'),
 'test_parser_parse_with_date_when_fuzzy_unit_and_normal_units': ('(Bytes × DateTime × Duration)', 'fun (s, t, d) => okIs (rtp.parseWithDate now s (some t)) d && okIs (Gnu.parseWithDate now s (some t)) d'),
 'test_parser_parse_with_valid_keywords': ('(Bytes × Duration)', ND+'okIs (rtp.parse now s) d'),
 'test_parser_trims_whitespace': ('Bytes', 'fun s => okIs (rtp.parse now s) ⟨false, ⟨1, 0⟩⟩'),
 'test_parser_when_overflow': ('(Bytes × Duration)', ND+'okIs (rtp.parse now s) d'),
 'test_parser_parse_fuzzy': ('(Bytes × (Int × Int × Duration))', 'fun (s, v) => fuzzyIs (rtp.parseFuzzy s) v && fuzzyIs (Gnu.parseFuzzy s) v'),
 'test_parser_with_invalid_numerals_then_error': ('Bytes', 'fun s => errIs (rtp.parse now (s ++ b! " sec")) (.invalidInput (s ++ b! " sec"))'),
 'test_parser_numerals_not_fuzzy_time_units_when_ago': ('(Bytes × Duration)', ND+'okIs (rtp.parse now s) d'),
 'test_parser_numerals_with_fuzzy_time_unit': ('(Bytes × Duration)', ND+'okIs (rtp.parseWithDate now s (some epoch)) d'),
 'test_parser_with_fuzzy_time_unit_when_ago_or_sign': ('(Bytes × Duration)', ND+'okIs (rtp.parseWithDate now s (some epoch)) d'),
 }, {
 'test_parser_numerals_with_not_fuzzy_time_units': '''([(b! "last", -1), (b! "this", 0), (b! "next", 1), (b! "first", 1), (b! "third", 3), (b! "fourth", 4), (b! "fifth", 5),
    (b! "sixth", 6), (b! "seventh", 7), (b! "eighth", 8), (b! "ninth", 9), (b! "tenth", 10), (b! "eleventh", 11),
    (b! "twelfth", 12)] : List (Bytes × Int)).all fun (w, k) => [(b! "sec", 1), (b! "min", 60)].all fun (u, c) =>
      okIs (rtp.parse now (w ++ b! " " ++ u)) ⟨decide (k * c < 0), ⟨(k * c).natAbs, 0⟩⟩''',
 }),
('Systemd', 'fundu-systemd/tests/test_time_span_parser.rs', '''
def tsp : Systemd.TimeSpanParser := Systemd.TimeSpanParser.new
''', {
 'test_parse_parse_when_invalid': ('(Bytes × Err)', 'fun (s, e) => errIs (tsp.parse s) e && errIs (Systemd.parse s none none) e && errIs (tsp.parseNanos s) e && errIs (Systemd.parseNanos s none none) e'),
 'test_parser_parse_infinity_when_invalid_then_error': ('(Bytes × Err)', 'fun (s, e) => errIs (tsp.parse s) e && errIs (Systemd.parse s none none) e && errIs (tsp.parseNanos s) e && errIs (Systemd.parseNanos s none none) e'),
 'test_parser_parse_infinity': ('Bytes', 'fun s => okIs (tsp.parse s) Systemd.SYSTEMD_MAX_MICRO_DURATION && okIs (Systemd.parse s none none) Systemd.SYSTEMD_MAX_MICRO_DURATION && okIs (tsp.parseNanos s) Systemd.SYSTEMD_MAX_NANOS_DURATION && okIs (Systemd.parseNanos s none none) Systemd.SYSTEMD_MAX_NANOS_DURATION'),
 'test_parser_parse_with_valid_time_units': ('(List Bytes × Duration)', 'fun (l, d) => l.all fun s => okIs (tsp.parse s) d'),
 'test_parser_parse_when_invalid_time_units': ('(Bytes × Err)', 'fun (s, e) => errIs (tsp.parse s) e && errIs (Systemd.parse s none none) e'),
 'test_parser_parse_when_saturating': ('Bytes', 'fun s => okIs (tsp.parse s) Systemd.SYSTEMD_MAX_MICRO_DURATION && okIs (Systemd.parse s none none) Systemd.SYSTEMD_MAX_MICRO_DURATION'),
 'test_parser_parse_when_barely_not_saturating': ('(Bytes × Duration)', ND+'okIs (tsp.parse s) d && okIs (Systemd.parse s none none) d'),
 'test_parser_parse_with_nanos_with_valid_time_units': ('(List Bytes × Duration)', 'fun (l, d) => l.all fun s => okIs (tsp.parseNanos s) d && okIs (Systemd.parseNanos s none none) d'),
 'test_parse_and_parse_nanos_with_time_units': ('(Bytes × Option TimeUnit × Duration)', 'fun (s, u, d) => okIs (Systemd.parse s u none) d && okIs (Systemd.parseNanos s u none) d'),
 'test_parse_with_max': ('(Bytes × Option Duration × Duration)', 'fun (s, m, d) => okIs (Systemd.parse s none m) d'),
 'test_parse_with_invalid_max_then_panic': ('Duration', 'fun m => panics (Systemd.parse (b! "123") none (some m))'),
 'test_parse_nanos_with_invalid_max_then_panic': ('Duration', 'fun m => panics (Systemd.parseNanos (b! "123") none (some m))'),
 }, {}),
('Numerals', 'fundu-core/tests/test_parsing_numerals.rs', '''
def twoNumerals : NumbersLike := fun w =>
  if w = b! "next" then some ⟨1, 0⟩ else if w = b! "three" then some ⟨3, 0⟩ else none
def twoTimeUnits : TimeUnitsLike := ⟨false, fun w =>
  if w = b! "second" then some (.second, ⟨1, 0⟩) else if w = b! "minute" then some (.minute, ⟨1, 0⟩) else none⟩
def emptyTimeUnits : TimeUnitsLike := ⟨true, fun _ => none⟩
def tomorrowKeyword : TimeUnitsLike := ⟨false, fun w => if w = b! "tomorrow" then some (.day, ⟨1, 0⟩) else none⟩
def spaceDelimiter : Delimiter := fun b => b = 32
def parse3 (cfg : Config) (s : Bytes) : R Duration := parse cfg twoTimeUnits (some tomorrowKeyword) (some twoNumerals) s
def numeralsMultiple : Config :=
  ConfigBuilder.new.allowTimeUnitDelimiter.parseMultiple none |>.innerDelimiter spaceDelimiter
    |>.outerDelimiter spaceDelimiter |>.build
''', {
 'test_parse_with_numerals': ('(Bytes × Duration)', ND+'okIs (parse3 (ConfigBuilder.new.allowTimeUnitDelimiter.innerDelimiter spaceDelimiter).build s) d'),
 'test_parse_with_numerals_when_sign_is_present': ('(Bytes × Duration)', ND+'okIs (parse3 (ConfigBuilder.new.allowTimeUnitDelimiter.allowAgo.allowSignDelimiter.innerDelimiter spaceDelimiter).allowNegative.build s) d'),
 'test_parse_with_numerals_when_number_is_optional': ('(Bytes × Duration)', ND+'okIs (parse3 ConfigBuilder.new.numberIsOptional.build s) d'),
 'test_parse_with_numerals_when_invalid': ('(Bytes × Err)', 'fun (s, e) => errIs (parse3 (ConfigBuilder.new.allowTimeUnitDelimiter.innerDelimiter spaceDelimiter).build s) e'),
 'test_parse_with_numerals_when_invalid_parse_multiple': ('(Bytes × Err)', 'fun (s, e) => errIs (parse3 numeralsMultiple s) e'),
 'test_parse_with_numerals_when_empty_time_units_no_keywords_and_parse_multiple': ('(Bytes × Err)', 'fun (s, e) => errIs (parse numeralsMultiple emptyTimeUnits none (some twoNumerals) s) e'),
 }, {}),
('Time', 'fundu-core/src/time.rs', '''
def minused (t : Bytes) : Bytes := b! "-" ++ t.flatMap fun b => if b = 32 then [32, 45] else [b]
def expectedWhole (d : Duration) (factor : Nat) : Int :=
  if d.isNegative then -((d.inner.secs / factor : Nat) : Int) else ((d.inner.secs / factor : Nat) : Int)
''', {
 'test_time_unit_default_identifier': ('(TimeUnit × Bytes)', 'fun (u, s) => u.defaultIdentifier = s'),
 'test_time_unit_multiplier': ('(TimeUnit × Multiplier)', 'fun (u, m) => u.multiplier = m'),
 'test_multiplier_is_negative_and_is_positive': ('(Multiplier × Bool)', 'fun (m, b) => m.isNegative = b && m.isPositive = !b'),
 'test_multiplier_multiplication_barely_no_panic': ('(TimeUnit × Multiplier)', 'fun (u, m) => !purePanics (u.multiplier.mul m)'),
 'test_multiplier_multiplication_then_panic': ('(TimeUnit × Multiplier)', 'fun (u, m) => purePanics (u.multiplier.mul m)'),
 'test_fundu_duration_is_positive_and_is_negative': ('(Duration × Bool)', 'fun (d, b) => Systemd.isPositive d = b && d.isNegative = !b'),
 'test_fundu_duration_abs': ('(Duration × Duration)', 'fun (d, e) => d.abs.eq e'),
 'test_fundu_display': ('(Duration × Bytes)', 'fun (d, t) => d.display = t && (if d.isZero then d.neg.display = t else d.neg.display = minused t)'),
 'test_fundu_duration_add': ('(Duration × Duration × Duration)', 'fun (a, b, e) => durIs (a.add b) e && durIs (b.add a) e'),
 'test_fundu_duration_add_assign': ('(Duration × Duration × Duration)', 'fun (a, b, e) => durIs (a.add b) e && durIs (b.add a) e'),
 'test_fundu_duration_checked_add': ('(Duration × Duration × Duration)', 'fun (a, b, e) => someDurIs (a.checkedAdd b) e && someDurIs (b.checkedAdd a) e'),
 'test_fundu_duration_sub': ('(Duration × Duration × Duration)', 'fun (a, b, e) => durIs (a.sub b.neg) e && durIs (b.sub a.neg) e'),
 'test_fundu_duration_sub_assign': ('(Duration × Duration × Duration)', 'fun (a, b, e) => durIs (a.sub b.neg) e && durIs (b.sub a.neg) e'),
 'test_fundu_duration_checked_sub': ('(Duration × Duration × Duration)', 'fun (a, b, e) => someDurIs (a.checkedSub b.neg) e && someDurIs (b.checkedSub a.neg) e'),
 'test_fundu_duration_add_and_add_assign_then_overflow': ('(Duration × Duration)', 'fun (a, b) => purePanics (a.add b)'),
 'test_fundu_duration_sub_and_sub_assign_then_overflow': ('(Duration × Duration)', 'fun (a, b) => purePanics (a.sub b.neg)'),
 'test_fundu_duration_checked_add_then_overflow': ('(Duration × Duration)', 'fun (a, b) => pureIs (a.checkedAdd b) none && pureIs (b.checkedAdd a) none'),
 'test_fundu_duration_checked_sub_then_overflow': ('(Duration × Duration)', 'fun (a, b) => pureIs (a.checkedSub b.neg) none'),
 'test_fundu_duration_saturating_add_then_saturate': ('(Duration × Duration)', 'fun (a, b) => let e := if !a.isNegative && !b.isNegative then Duration.MAX else Duration.MIN; durIs (a.saturatingAdd b) e && durIs (b.saturatingAdd a) e'),
 'test_fundu_duration_saturating_sub_then_saturate': ('(Duration × Duration)', 'fun (a, b) => let e := if a.isNegative && !b.neg.isNegative then Duration.MIN else Duration.MAX; durIs (a.saturatingSub b.neg) e'),
 'test_fundu_duration_as_seconds': ('(Duration × Int)', 'fun (d, n) => pureIs d.asSeconds n'),
 'test_fundu_duration_as_whole': ('Duration', 'fun d => [2, 3, 4, 60, U64_MAX / 2, U64_MAX].all fun f => pureIs (d.asWhole f) (expectedWhole d f) && pureIs (d.neg.asWhole f) (-expectedWhole d f)'),
 'test_fundu_duration_as_weeks': ('(Nat × Int)', 'fun (s, n) => pureIs (Duration.asWeeks ⟨false, ⟨s, 0⟩⟩) n && pureIs (Duration.asWeeks ⟨true, ⟨s, 0⟩⟩) (-n)'),
 'test_fundu_duration_as_days': ('(Nat × Int)', 'fun (s, n) => pureIs (Duration.asDays ⟨false, ⟨s, 0⟩⟩) n && pureIs (Duration.asDays ⟨true, ⟨s, 0⟩⟩) (-n)'),
 'test_fundu_duration_as_hours': ('(Nat × Int)', 'fun (s, n) => pureIs (Duration.asHours ⟨false, ⟨s, 0⟩⟩) n && pureIs (Duration.asHours ⟨true, ⟨s, 0⟩⟩) (-n)'),
 'test_fundu_duration_as_minutes': ('(Nat × Int)', 'fun (s, n) => pureIs (Duration.asMinutes ⟨false, ⟨s, 0⟩⟩) n && pureIs (Duration.asMinutes ⟨true, ⟨s, 0⟩⟩) (-n)'),
 'test_fundu_duration_as_nanos': ('(Duration × Int)', 'fun (d, n) => pureIs d.asNanos n && pureIs d.neg.asNanos (-n)'),
 'test_fundu_duration_as_micros': ('(Duration × Int)', 'fun (d, n) => pureIs d.asMicros (n.tdiv 1000) && pureIs d.neg.asMicros ((-n).tdiv 1000)'),
 'test_fundu_duration_as_millis': ('(Duration × Int)', 'fun (d, n) => pureIs d.asMillis (n.tdiv 1000000) && pureIs d.neg.asMillis ((-n).tdiv 1000000)'),
 'test_fundu_duration_subsec_nanos': ('(Duration × Int)', 'fun (d, n) => pureIs d.subsecNanos n && pureIs d.neg.subsecNanos (-n)'),
 'test_fundu_duration_subsec_micros': ('(Duration × Int)', 'fun (d, n) => pureIs d.subsecMicros (n.tdiv 1000) && pureIs d.neg.subsecMicros (-n.tdiv 1000)'),
 'test_fundu_duration_subsec_millis': ('(Duration × Int)', 'fun (d, n) => pureIs d.subsecMillis (n.tdiv 1000000) && pureIs d.neg.subsecMillis (-n.tdiv 1000000)'),
 'test_fundu_duration_extract_i64': ('Duration', 'fun d => [2, 3, 4, 5, 60, U64_MAX / 2, U64_MAX].all fun f => numDurIs (d.extractI64 f) (expectedWhole d f) ⟨d.isNegative, ⟨d.inner.secs % f, d.inner.nanos⟩⟩'),
 'test_fundu_duration_extract_weeks': ('(Duration × Int × Duration)', 'fun (d, n, e) => numDurIs d.extractWeeks n e'),
 'test_fundu_duration_extract_days': ('(Duration × Int × Duration)', 'fun (d, n, e) => numDurIs d.extractDays n e'),
 'test_fundu_duration_extract_hours': ('(Duration × Int × Duration)', 'fun (d, n, e) => numDurIs d.extractHours n e'),
 'test_fundu_duration_extract_minutes': ('(Duration × Int × Duration)', 'fun (d, n, e) => numDurIs d.extractMinutes n e'),
 'test_fundu_duration_extract_seconds': ('(Duration × Int × Duration)', 'fun (d, n, e) => numDurIs d.extractSeconds n e && numDurIs d.neg.extractSeconds (-n) e.neg'),
 'test_duration_partial_and_total_ordering': ('(Duration × Duration × Ordering)', 'fun (a, b, o) => a.cmp b = o && b.cmp a = o.swap'),
 'test_duration_hash_and_eq_property_when_equal': ('(Duration × Duration)', 'fun (a, b) => a.eq b && b.eq a && a.hashData = b.hashData'),
 'test_duration_hash_and_eq_property_when_not_equal': ('(Duration × Duration)', 'fun (a, b) => !a.eq b && !b.eq a && a.hashData ≠ b.hashData'),
 'test_fundu_duration_saturating_into_std_duration': ('(Duration × StdDuration)', 'fun (d, e) => pureIs d.saturatingToStd e'),
 'test_fundu_duration_saturating_into_time_duration': ('(Duration × TimeDuration)', 'fun (d, e) => pureIs d.saturatingToTime e'),
 'test_fundu_duration_saturating_into_chrono_duration': ('(Duration × ChronoDuration)', 'fun (d, e) => pureIs d.saturatingToChrono e'),
 'test_std_duration_try_from_for_fundu_duration_then_error': ('Duration', 'fun d => match d.toStd with | .error e => e = .negativeDuration | _ => false'),
 'test_chrono_duration_try_from_fundu_duration': ('(Duration × ChronoDuration)', 'fun (d, e) => match d.toChrono with | .ok (.ok x) => x = e | _ => false'),
 'test_chrono_duration_try_from_fundu_duration_then_error': ('(Duration × TryFromDurationError)', 'fun (d, e) => match d.toChrono with | .ok (.error x) => x = e | _ => false'),
 'test_fundu_duration_from_std_time_duration': ('(StdDuration × Duration)', 'fun (d, e) => (Duration.ofStd d).eq e'),
 'test_fundu_duration_from_time_duration': ('(TimeDuration × Duration)', 'fun (d, e) => durIs (Duration.ofTime d) e'),
 'test_fundu_duration_from_chrono_duration': ('(ChronoDuration × Duration)', 'fun (d, e) => durIs (Duration.ofChrono d) e'),
 }, {
 'test_time_duration_try_from_fundu_duration': 'match Duration.toTime ⟨false, ⟨1, 0⟩⟩ with | .ok (.ok x) => x = ⟨1, 0⟩ | _ => false',
 'test_multiplier_get_coefficient': 'decide ((⟨1234, 0⟩ : Multiplier).coefficient = 1234)',
 'test_multiplier_get_exponent': 'decide ((⟨0, 1234⟩ : Multiplier).exponent = 1234)',
 }),
('Repr', 'fundu-core/src/parse.rs', '''
def rangeIs (r : R (Range × Cursor)) (e : Range) : Bool := match r with | .ok x => x.1 = e | _ => false
''', {
 'test_duration_repr_parser_parse_8_digits': ('(Bytes × Option Nat)', 'fun (s, o) => match (Cursor.new s).parse8 with | .ok r => r.map (·.1) = o | _ => false'),
 'test_duration_repr_parser_parse_8_digits_when_not_8_digits': ('(Bytes × Option Nat)', 'fun (s, o) => match (Cursor.new s).parse8 with | .ok r => r.map (·.1) = o | _ => false'),
 'test_duration_repr_parser_parse_whole_single': ('(Bytes × Range)', 'fun (s, r) => rangeIs (Cursor.new s).parseDigitsStripZeros r'),
 'test_duration_repr_parser_parse_whole_multiple': ('(Bytes × Range)', 'fun (s, r) => rangeIs (Cursor.new s).parseDigitsStripZeros r'),
 'test_duration_repr_parser_parse_fract_single': ('(Bytes × Range)', 'fun (s, r) => rangeIs (Cursor.new s).parseDigits r'),
 'test_duration_repr_parser_parse_fract_multiple': ('(Bytes × Range)', 'fun (s, r) => rangeIs (Cursor.new s).parseDigits r'),
 'test_fract': ('(Bytes × Option Bytes × Option Nat × Nat)', 'fun (s, p, z, n) => pureIs (Fract.parse s p z) n'),
 }, {
 'test_duration_repr_parser_parse_8_digits_when_more_than_8': 'match (Cursor.new (b! "00000000a")).parse8 with | .ok (some (n, c)) => n = 0x3030303030303030 && valIs c.getRemainder (b! "a") && c.cur = some 97 && c.pos = 8 | _ => false',
 'test_fract_is_empty': '(⟨0, 0⟩ : Range).isEmpty && (⟨9, 9⟩ : Range).isEmpty',
 'test_whole_is_empty': '(⟨0, 0⟩ : Range).isEmpty && (⟨9, 9⟩ : Range).isEmpty',
 'test_try_consume_delimiter_when_input_starts_with_delimiter_then_error': 'errIs ((Cursor.new (b! " some")).tryConsumeDelimiter (fun b => b = 32)) (.syntax 0 (b! "Input may not start with a delimiter"))',
 }),
('Error', 'fundu-core/src/error.rs', '''
/-- The texts of tests are not texts of the parser: they stand in the reason `text` -/
def shown : Err → Bytes
  | .syntax p t => ParseError.display (.syntax p (.text t))
  | .overflow => ParseError.display .overflow
  | .timeUnit p t => ParseError.display (.timeUnit p (.text t))
  | .negativeExponentOverflow => ParseError.display .negativeExponentOverflow
  | .positiveExponentOverflow => ParseError.display .positiveExponentOverflow
  | .negativeNumber => ParseError.display .negativeNumber
  | .invalidInput t => ParseError.display (.invalidInput (.text t))
  | .empty => ParseError.display .empty
''', {
 'test_error_messages_parse_error': ('(Err × Bytes)', 'fun (e, t) => shown e = t'),
 'test_from_for_parse_error': ('(TryFromDurationError × Err)', 'fun (a, e) => errOf (ParseError.ofConversion a) = e'),
 'test_error_messages_try_from_duration_error': ('(TryFromDurationError × Bytes)', 'fun (a, t) => a.display = t'),
 }, {}),
('Util', 'fundu-core/src/util.rs', '', {}, {
 'test_floor_log2_for_u64_at_critical_margins': '(List.range 63).all fun i => pureIs (floorLog2 (2 ^ i)) i && (i = 0 || pureIs (floorLog2 (2 ^ i - 1)) (i - 1) && pureIs (floorLog2 (2 ^ i + 1)) i)',
 'test_floor_log2_for_u64_when_u64_max': 'pureIs (floorLog2 U64_MAX) 63',
 'test_floor_log2_for_u64_when_zero': 'purePanics (floorLog2 0)',
 'test_floor_log10_for_u64_at_critical_margins': '(List.range 19).all fun i => pureIs (floorLog10 (10 ^ i)) i && (i = 0 || pureIs (floorLog10 (10 ^ i - 1)) (i - 1)) && pureIs (floorLog10 (10 ^ i + 1)) i',
 'test_floor_log10_for_u64_when_u64_max': 'pureIs (floorLog10 U64_MAX) 19',
 'test_floor_log10_for_u64_when_zero': 'purePanics (floorLog10 0)',
 }),
('GnuUtil', 'fundu-gnu/src/util.rs', '''
def wordsAre (r : Except Panic (Nat × Nat)) (l : List Nat) : Bool := match r with | .ok x => [x.1, x.2] = l | _ => false
''', {
 'test_to_lowercase_u64': ('(Bytes × List Nat)', 'fun (s, l) => wordsAre (Gnu.toLowercaseU64 s) l'),
 'test_to_lowercase_u64_with_all_gnu_ids': ('(Bytes × List Nat)', 'fun (s, l) => wordsAre (Gnu.toLowercaseU64 s) l'),
 }, {}),
('DateTime', 'fundu-gnu/src/datetime.rs', '''
abbrev Ymd := Int × Nat × Nat
/-- A date and time given with its offset: `time`'s `to_offset` shows the local date and time of an instant; `chrono`'s
`west_opt` is the same offset with the opposite sign.  The date and time of the instant in UTC, shifted by the offset, is found
with the model's own arithmetic. -/
def shifted (v : Int × Nat × Nat × Nat × Nat × Nat × Nat × Int) : DateTime.Civil :=
  let (y, m, d, h, mi, s, n, o) := v
  let t := get (DateTime.fromGregorianDateTime y m d h mi s n)
  let t := get (t.checkedAddDuration ⟨decide (o < 0), ⟨o.natAbs, 0⟩⟩) |>.getD t
  let (y, m, d) := (get t.toGregorianDate).getD (0, 0, 0)
  let (h, mi, s, n) := t.asHmsn
  ⟨y, m, d, h, mi, s, n⟩
''', {
 'test_julian_days_from_gregorian': ('(Ymd × Int)', 'fun ((y, m, d), n) => pureIs (JulianDay.fromGregorian y m d) n'),
 'test_julian_days_from_gregorian_then_panic': ('Ymd', 'fun (y, m, d) => purePanics (JulianDay.fromGregorian y m d)'),
 'test_julian_days_try_from_gregorian_then_none': ('Ymd', 'fun (y, m, d) => pureIs (JulianDay.tryFromGregorian y m d) none'),
 'test_julian_days_try_from_gregorian_with_illegal_argument_then_panic': ('Ymd', 'fun (y, m, d) => purePanics (JulianDay.tryFromGregorian y m d)'),
 'test_julian_days_to_gregorian': ('(Int × Ymd)', 'fun (n, v) => pureIs (JulianDay.toGregorian n) (some v)'),
 'test_julian_days_to_gregorian_then_none': ('Int', 'fun n => pureIs (JulianDay.toGregorian n) none'),
 'test_julian_days_checked_add_days': ('(Int × Int × Int)', 'fun (a, b, e) => JulianDay.checkedAddDays a b = some e && JulianDay.checkedAddDays b a = some e'),
 'test_julian_days_checked_add': ('(Int × Int × Int)', 'fun (a, b, e) => JulianDay.checkedAddDays a b = some e && JulianDay.checkedAddDays b a = some e'),
 'test_julian_days_checked_add_then_none': ('(Int × Int)', 'fun (a, b) => JulianDay.checkedAddDays a b = none'),
 'test_julian_days_checked_sub_days': ('(Int × Int × Int)', 'fun (a, b, e) => JulianDay.checkedSubDays a (-b) = some e'),
 'test_julian_days_checked_sub': ('(Int × Int × Int)', 'fun (a, b, e) => JulianDay.checkedSubDays a (-b) = some e'),
 'test_date_time_from_gregorian_date_time': ('((Int × Nat × Nat × Nat × Nat × Nat × Nat) × Int × Nat)', 'fun ((y, m, d, h, mi, s, n), j, t) => pureIs (DateTime.fromGregorianDateTime y m d h mi s n) ⟨j, t⟩'),
 'test_date_time_as_hmsn': ('(Nat × Nat × Nat × Nat)', 'fun (h, m, s, n) => (get (DateTime.fromGregorianDateTime 1 1 1 h m s n)).asHmsn = (h, m, s, n)'),
 'test_date_time_checked_add_duration': ('(DateTime × Duration × DateTime)', 'fun (t, d, e) => pureIs (t.checkedAddDuration d) (some e)'),
 'test_date_time_checked_sub_duration': ('(DateTime × Duration × DateTime)', 'fun (e, d, t) => pureIs (t.checkedSubDuration d) (some e)'),
 'test_date_time_checked_add_gregorian': ('(DateTime × (Int × Int × Int) × DateTime)', 'fun (t, (y, m, d), e) => pureIs (t.checkedAddGregorian y m d) (some e)'),
 'test_date_time_checked_add_gregorian_then_none': ('(DateTime × (Int × Int × Int))', 'fun (t, (y, m, d)) => pureIs (t.checkedAddGregorian y m d) none'),
 'test_date_time_checked_sub': ('(DateTime × DateTime × Duration)', 'fun (a, b, d) => someDurIs (a.durationSince b) d'),
 'test_date_time_now_utc': ('((Bool × StdDuration) × DateTime)', 'fun ((b, s), e) => pureIs (DateTime.nowUtcWithSystemTime b s) e'),
 'test_time_offset_date_time_into_date_time': ('((Int × Nat × Nat × Nat × Nat × Nat × Nat × Int) × DateTime)', 'fun (v, e) => pureIs (DateTime.ofTime (shifted v)) e'),
 'test_chrono_date_time_into_date_time': ('((Int × Nat × Nat × Nat × Nat × Nat × Nat × Int) × DateTime)', 'fun (v, e) => pureIs (DateTime.ofChrono (shifted v)) e'),
 'test_time_offset_date_time_min_max_into_date_time': ('Int', 'fun y => pureIs (DateTime.ofTime ⟨y, 12, 31, 23, 59, 59, 999999999⟩) (get (DateTime.fromGregorianDateTime y 12 31 23 59 59 999999999))'),
 'test_chrono_date_time_min_max_into_date_time': ('Int', 'fun y => pureIs (DateTime.ofChrono ⟨y, 12, 31, 23, 59, 59, 999999999⟩) (get (DateTime.fromGregorianDateTime y 12 31 23 59 59 999999999))'),
 }, {
 'test_julian_days_checked_sub_then_none': 'JulianDay.checkedSubDays I64_MIN 1 = none',
 'test_julian_checked_add_days_then_none': 'JulianDay.checkedAddDays I64_MAX 1 = none',
 'test_julian_days_checked_sub_days_then_none': 'JulianDay.checkedSubDays I64_MIN 1 = none',
 'test_date_time_to_gregorian_date': 'pureIs DateTime.UNIX_EPOCH.toGregorianDate (some (1970, 1, 1))',
 'test_date_time_to_gregorian_date_time': 'pureIs DateTime.UNIX_EPOCH.toGregorianDateTime (some ((1970, 1, 1), 0, 0, 0, 0))',
 'test_date_time_as_julian_day': 'DateTime.UNIX_EPOCH.asJulianDay = 2440588',
 'test_time_primitive_date_time_into_date_time': 'pureIs (DateTime.ofTime ⟨0, 1, 1, 0, 0, 0, 0⟩) (get (DateTime.fromGregorianDateTime 0 1 1 0 0 0 0))',
 'test_ordinal_to_month_lookup_table': '(ORDINAL_TO_MONTH = (List.range 12).flatMap fun m => List.replicate (if m = 11 then 29 else if m = 1 || m = 3 || m = 6 || m = 8 then 30 else 31) ((m + 2) % 12 + 1))',
 }),
('CustomUnits', 'fundu/src/custom/time_units.rs', '''
/-- `CustomTimeUnits::lookup` -/
def lookup (t : CustomTimeUnits) (u : TimeUnit) (m : Multiplier) : Option (LookupData × List Bytes) :=
  t.timeUnits.find? fun e => e.1.timeUnit = u && e.1.multiplier = m
def unit (u : TimeUnit) (ids : List Bytes) (m : Int) : CustomTimeUnit := get (CustomTimeUnit.new u ids (some ⟨m, 0⟩))
def add (l : List CustomTimeUnit) : CustomTimeUnits := l.foldl (·.addCustomTimeUnit ·) CustomTimeUnits.new
''', {
 'test_custom_time_units_init_with_time_units': ('(CustomTimeUnit × Nat × Nat)', 'fun (u, lo, hi) => let c := CustomTimeUnits.withTimeUnits [u]; !c.isEmpty && lookup c u.baseUnit ⟨1, 0⟩ = some (⟨lo, hi, u.baseUnit, ⟨1, 0⟩⟩, u.identifiers)'),
 'test_custom_time_unit_equality_when_equal': ('(CustomTimeUnit × CustomTimeUnit)', 'fun (a, b) => a.eq b'),
 'test_custom_time_unit_equality_when_not_equal': ('(CustomTimeUnit × CustomTimeUnit)', 'fun (a, b) => !a.eq b'),
 'test_custom_time_unit_hash_when_equal': ('(CustomTimeUnit × CustomTimeUnit)', 'fun (a, b) => a.eq b && b.eq a && a.hashData = b.hashData'),
 }, {
 'test_custom_time_units_init_new': 'CustomTimeUnits.new.isEmpty',
 'test_custom_time_units_init_with_time_units_when_multiple_equal_ids': 'let c := CustomTimeUnits.withTimeUnits [CustomTimeUnit.withDefault .nanoSecond [b! "same", b! "same"]]; !c.isEmpty && lookup c .nanoSecond ⟨1, 0⟩ = some (⟨4, 4, .nanoSecond, ⟨1, 0⟩⟩, [b! "same", b! "same"]) && c.get (b! "same") = some (.nanoSecond, ⟨1, 0⟩)',
 'test_custom_time_units_when_add_custom_time_unit': 'let c := add [CustomTimeUnit.withDefault .microSecond [b! "some", b! "ids"]]; (lookup c .microSecond ⟨1, 0⟩).map (·.2) = some [b! "some", b! "ids"] && c.get (b! "some") = some (.microSecond, ⟨1, 0⟩) && c.get (b! "ids") = some (.microSecond, ⟨1, 0⟩) && c.get (b! "does not exist") = none && !c.isEmpty',
 'test_custom_time_units_when_adding_time_unit_with_empty_slice_then_not_added': 'let c := add [CustomTimeUnit.withDefault .microSecond []]; c.isEmpty && lookup c .microSecond ⟨1, 0⟩ = none',
 'test_custom_time_units_when_adding_time_unit_with_empty_id_then_not_added': 'let c := add [CustomTimeUnit.withDefault .microSecond [b! ""]]; c.isEmpty && lookup c .microSecond ⟨1, 0⟩ = none',
 'test_custom_time_units_adding_custom_time_unit_with_empty_id_then_not_added': '(add [unit .second [b! ""] 2]).isEmpty',
 'test_custom_time_units_adding_custom_time_unit': 'let c := add [unit .second [b! "sec"] 2]; !c.isEmpty && lookup c .second ⟨2, 0⟩ = some (⟨3, 3, .second, ⟨2, 0⟩⟩, [b! "sec"]) && c.get (b! "sec") = some (.second, ⟨2, 0⟩)',
 'test_custom_time_units_adding_multiple_custom_time_unit': 'let c := add [unit .second [b! "sec"] 1, unit .second [b! "secs"] 2]; lookup c .second ⟨1, 0⟩ = some (⟨3, 3, .second, ⟨1, 0⟩⟩, [b! "sec"]) && lookup c .second ⟨2, 0⟩ = some (⟨4, 4, .second, ⟨2, 0⟩⟩, [b! "secs"]) && c.get (b! "sec") = some (.second, ⟨1, 0⟩) && c.get (b! "secs") = some (.second, ⟨2, 0⟩)',
 'test_custom_time_units_adding_custom_time_unit_when_normal_time_unit_already_exists': 'let c := add [unit .second [b! "s"] 1, unit .second [b! "ss"] 2]; lookup c .second ⟨1, 0⟩ = some (⟨1, 1, .second, ⟨1, 0⟩⟩, [b! "s"]) && lookup c .second ⟨2, 0⟩ = some (⟨2, 2, .second, ⟨2, 0⟩⟩, [b! "ss"]) && c.get (b! "s") = some (.second, ⟨1, 0⟩) && c.get (b! "ss") = some (.second, ⟨2, 0⟩)',
 'test_custom_time_units_adding_custom_time_unit_when_normal_time_unit_with_same_id': 'let c := add [unit .second [b! "s"] 1, unit .second [b! "s"] 2]; lookup c .second ⟨1, 0⟩ = some (⟨1, 1, .second, ⟨1, 0⟩⟩, [b! "s"]) && lookup c .second ⟨2, 0⟩ = some (⟨1, 1, .second, ⟨2, 0⟩⟩, [b! "s"]) && c.get (b! "s") = some (.second, ⟨1, 0⟩)',
 'test_custom_time_units_adding_custom_time_unit_when_identifiers_is_empty': 'let c := add [unit .second [] 2]; c.isEmpty && lookup c .second ⟨2, 0⟩ = none',
 'test_custom_time_units_adding_custom_time_unit_when_adding_same_unit_twice': 'let c := add [unit .second [b! "s"] 2, unit .second [b! "s"] 2]; lookup c .second ⟨2, 0⟩ = some (⟨1, 1, .second, ⟨2, 0⟩⟩, [b! "s", b! "s"])',
 'test_custom_time_unit_new_when_overflow_then_panic': 'purePanics (CustomTimeUnit.new .year [b! "year"] (some ⟨I64_MAX, 0⟩))',
 }),
('CustomNumerals', 'fundu/src/custom/mod.rs', '''
def last : Numeral := ⟨[b! "last"], ⟨-1, 0⟩⟩
''', {
 'test_numerals_with_valid_numerals': ('(Bytes × Multiplier)', 'fun (s, m) => numeralsGet [last, ⟨[b! "this"], ⟨0, 0⟩⟩, ⟨[b! "next"], ⟨1, 0⟩⟩] s = some m'),
 'test_numerals_with_invalid_numerals': ('Bytes', 'fun s => numeralsGet [last] s = none'),
 }, {}),
('CustomParser', 'fundu/src/custom/parser.rs', '', {
 'test_custom_duration_parser_parse_when_default_time_units': ('(Bytes × Duration)', ND+'okIs ((CustomDurationParser.withTimeUnits DEFAULT_ALL_TIME_UNITS).parse s) d'),
 }, {
 'test_custom_duration_parser_init_new': 'CustomDurationParser.new.isEmpty && okIs (CustomDurationParser.new.parse (b! "1.0")) ⟨false, ⟨1, 0⟩⟩ && errIs (CustomDurationParser.new.parse (b! "1.0s")) (.timeUnit 3 (b! "No time units allowed but found: \'s\'"))',
 'test_custom_duration_parser_init_with_time_units': 'let p := CustomDurationParser.withTimeUnits DEFAULT_ALL_TIME_UNITS; p.config.defaultUnit = .second && DEFAULT_ALL_TIME_UNITS.all (fun u => u.identifiers.all fun i => p.getTimeUnitById i = some (u.baseUnit, ⟨1, 0⟩)) && okIs (p.parse (b! "1.0")) ⟨false, ⟨1, 0⟩⟩',
 'test_custom_duration_parser_when_add_custom_time_units': '[b! "century", b! "centuries"].all fun i => (CustomDurationParser.new.timeUnit (get (CustomTimeUnit.new .year [b! "century", b! "centuries"] (some ⟨100, 0⟩)))).getTimeUnitById i = some (.year, ⟨100, 0⟩)',
 'test_custom_duration_parser_when_setting_default_time_unit': 'okIs ((CustomDurationParser.new.defaultUnit .nanoSecond).parse (b! "1")) ⟨false, ⟨0, 1⟩⟩',
 'test_custom_duration_parser_parse_when_non_ascii': 'okIs ((CustomDurationParser.withTimeUnits [CustomTimeUnit.withDefault .milliSecond [b! "мілісекунда"]]).parse (b! "1мілісекунда")) ⟨false, ⟨0, 1000000⟩⟩',
 'test_custom_duration_parser_when_adding_custom_time_units': 'let p := CustomDurationParser.new.addTimeUnits [get (CustomTimeUnit.new .second [b! "sec"] (some ⟨1, 0⟩)), get (CustomTimeUnit.new .second [b! "secs"] (some ⟨2, 0⟩))]; p.getTimeUnitById (b! "sec") = some (.second, ⟨1, 0⟩) && p.getTimeUnitById (b! "secs") = some (.second, ⟨2, 0⟩)',
 }),
('StandardUnits', 'fundu/src/standard/time_units.rs', '', {
 'test_time_units_get': ('(Bytes × Option (TimeUnit × Multiplier))', 'fun (s, o) => TimeUnits.withAllTimeUnits.get s = o && TimeUnits.new.get s = none'),
 }, {
 'test_time_units_new': 'TimeUnits.new.isEmpty && TimeUnits.new.getTimeUnits = []',
 'test_time_units_when_empty_then_return_true': 'TimeUnits.new.isEmpty',
 'test_time_units_with_default_time_units': '!TimeUnits.withDefaultTimeUnits.isEmpty && TimeUnits.withDefaultTimeUnits.getTimeUnits = [.nanoSecond, .microSecond, .milliSecond, .second, .minute, .hour, .day, .week]',
 'test_time_units_with_all_time_units': '!TimeUnits.withAllTimeUnits.isEmpty && TimeUnits.withAllTimeUnits.getTimeUnits = [.nanoSecond, .microSecond, .milliSecond, .second, .minute, .hour, .day, .week, .month, .year]',
 'test_time_units_get_time_units': 'TimeUnits.withAllTimeUnits.getTimeUnits = [.nanoSecond, .microSecond, .milliSecond, .second, .minute, .hour, .day, .week, .month, .year]',
 'test_time_units_with_time_units_when_single_unit': '[TimeUnit.nanoSecond, .microSecond, .milliSecond, .second, .minute, .hour, .day, .week, .month, .year].all fun u => !(TimeUnits.withTimeUnits [u]).isEmpty && (TimeUnits.withTimeUnits [u]).data = (List.replicate 10 none).set u.index (some u)',
 'test_time_units_with_time_units_when_all_time_units': '(TimeUnits.withTimeUnits [.nanoSecond, .microSecond, .milliSecond, .second, .minute, .hour, .day, .week, .month, .year]).data = [some .nanoSecond, some .microSecond, some .milliSecond, some .second, some .minute, some .hour, some .day, some .week, some .month, some .year]',
 }),
]
