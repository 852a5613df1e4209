{"id": "C01", "title": "Duration comparison is comparison of signed time", "statement": "Duration's ==, <, cmp and hash agree with the signed length of time the duration stands for: a == b iff both stand for the same number of nanoseconds (so -0 == 0), cmp is the total order of these numbers, and equal durations feed the same data to a Hasher. The operators <, <=, >, >= compare these numbers; max, min and clamp return the longer, the shorter and the nearest duration of the interval (clamp panics exactly if the interval is empty).", "quantifier": "all pairs (triples, for transitivity) of durations", "why_tests_cant": "2^94 x 2^94 pairs; negative zero makes the derived implementations wrong only on rare pairs.", "anchors": ["fundu-core/src/time.rs: impl PartialEq/PartialOrd/Ord/Hash for Duration"]}
{"id": "C02", "title": "Duration addition and subtraction are exact or report overflow", "statement": "a.checked_add(b) / a.checked_sub(b) is Some(d) with d standing for exactly a+b / a-b nanoseconds iff that sum lies in [Duration::MIN, Duration::MAX], and None otherwise; saturating_add/sub clamps to MIN/MAX on the correct side; `+`/`-` panic exactly when the checked version is None; `+=`/`-=` leave the same and panic in the same cases. is_negative() of a sum or difference is true iff it is below zero, or it is zero as the sum of two zeros marked as negative (the second operand of a difference counts with the opposite mark).", "quantifier": "all pairs of durations", "why_tests_cant": "The borrow/carry and the four sign cases interact at boundaries no finite sample covers.", "anchors": ["fundu-core/src/time.rs: Duration::checked_add, checked_sub, saturating_add, saturating_sub, Add, AddAssign, Sub, SubAssign, Neg"]}
{"id": "C03", "title": "neg and abs", "statement": "-(-d) == d, d + (-d) is zero, abs(d) is the non-negative duration of the same magnitude, for every duration; negation never loses range (MIN = -MAX).", "quantifier": "all durations", "why_tests_cant": "whole value range incl. MIN/MAX and negative zero", "anchors": ["fundu-core/src/time.rs: Duration::abs, impl Neg"]}
{"id": "C04", "title": "as_* and subsec_* accessors truncate toward zero and never overflow", "statement": "as_weeks/days/hours/minutes/seconds/millis/micros/nanos return the signed length divided by the unit rounded toward zero, subsec_* return the truncated sub-second part, and no intermediate arithmetic or cast overflows.", "quantifier": "all durations", "why_tests_cant": "casts u64->i64 and negations are only wrong near the ends of the range", "anchors": ["fundu-core/src/time.rs: as_whole, as_weeks..as_nanos, subsec_*"]}
{"id": "C05", "title": "extract_* splits a duration without loss", "statement": "extract_weeks/days/hours/minutes/seconds return n and leave r with old = n*unit + r exactly, |r| < unit, r of the same sign as the original, and never panic; chaining all extractions reassembles the original, in any order and number of extractions.", "quantifier": "all durations, all chains of extractions", "why_tests_cant": "2^94 values; unwrap() inside", "anchors": ["fundu-core/src/time.rs: extract_i64, extract_weeks..extract_seconds"]}
{"id": "C06", "title": "Display output parses back to the same duration", "statement": "For every duration d, parsing d.to_string() with a DurationParser with all time units, parse_multiple and allow_negative returns a duration equal to d.", "quantifier": "all durations", "why_tests_cant": "round trip over 2^94 values through formatter, tokenizer, number conversion and saturating sum", "anchors": ["fundu-core/src/time.rs: impl Display for Duration", "fundu-core/src/parse.rs: parse_multiple", "fundu/src/standard/parser.rs: DurationParser"]}
{"id": "C07", "title": "Conversion to and from std::time::Duration is lossless or an error", "statement": "From<std> then TryFrom is the identity; TryFrom fails with NegativeDuration iff the duration is strictly negative and otherwise keeps the exact value; saturating_into gives the exact value or ZERO for negatives and never hits unreachable!().", "quantifier": "all durations / all std durations", "why_tests_cant": "whole range", "anchors": ["fundu-core/src/time.rs: From<std::time::Duration>, TryFrom<Duration> for std::time::Duration, SaturatingInto"]}
{"id": "C08", "title": "Conversion to and from time::Duration is lossless or an error", "statement": "TryFrom succeeds with the exact value iff the whole seconds fit the i64 seconds of time::Duration (both signs, including i64::MIN), else reports Positive/NegativeOverflow matching the sign; From then TryFrom is the identity; saturating_into clamps at the matching end and never hits unreachable!().", "quantifier": "all durations / all valid time::Durations", "why_tests_cant": "wrapping_neg and casts at 2^63", "anchors": ["fundu-core/src/time.rs: cfg(feature=time) impls"]}
{"id": "C09", "title": "Conversion to and from chrono::Duration is lossless or an error", "statement": "TryFrom succeeds with the exact value iff it lies in chrono's [min_value, max_value], else reports Positive/NegativeOverflow matching the sign; From is exact for every chrono duration; From then TryFrom is the identity.", "quantifier": "all durations / all chrono durations in range", "why_tests_cant": "floor representation of negative chrono durations vs sign-magnitude; boundaries in ms", "anchors": ["fundu-core/src/time.rs: cfg(feature=chrono) impls"]}
{"id": "C10", "title": "Multiplier multiplication is exact or reports overflow", "statement": "Multiplier(m1,e1).checked_mul(Multiplier(m2,e2)) is Some of exactly (m1*m2, e1+e2) iff both fit i64/i16, None otherwise; `*` panics exactly on None; the value m*10^e is multiplicative; saturating_neg negates exactly except at i64::MIN.", "quantifier": "all pairs of multipliers", "why_tests_cant": "2^80 x 2^80 pairs", "anchors": ["fundu-core/src/time.rs: Multiplier::checked_mul, Mul, saturating_neg, is_negative"]}
{"id": "C11", "title": "The 8-bytes-at-once digit test equals the per-byte test", "statement": "The SWAR test used while scanning numbers accepts 8 bytes iff each of them is an ASCII digit; hence the scanner consumes exactly the maximal run of ASCII digits, whatever follows (including bytes >= 0x80).", "quantifier": "all 2^64 8-byte words, all inputs and positions", "why_tests_cant": "2^64 words; carries between lanes", "anchors": ["fundu-core/src/parse.rs: Bytes::parse_8_digits, parse_digits"]}
{"id": "C12", "title": "The 8-digits-at-once conversion is exact", "statement": "The three wrapping multiplications convert any 8 ASCII digits to their decimal value.", "quantifier": "all 10^8 digit words", "why_tests_cant": "wrap-around argument must hold for all words", "anchors": ["fundu-core/src/parse.rs: Parse8Digits::parse_8_digits"]}
{"id": "C13", "title": "Leading zeros are stripped exactly", "statement": "The whole part used for conversion is the digit run without its leading zeros (empty if all are zero), independent of how zeros are distributed over 8-byte blocks.", "quantifier": "all digit runs of any length", "why_tests_cant": "unbounded length, block boundaries", "anchors": ["fundu-core/src/parse.rs: Bytes::parse_digits_strip_zeros"]}
{"id": "C14", "title": "Whole number conversion is exact or reports overflow", "statement": "Converting digits (with optional appended digits and appended zeros) gives exactly the decimal value iff it is < 2^64, and None otherwise; never wraps, never panics.", "quantifier": "all digit strings of any length, all zero counts", "why_tests_cant": "unbounded length", "anchors": ["fundu-core/src/parse.rs: Whole::parse_slice, Whole::parse"]}
{"id": "C15", "title": "Fraction conversion truncates at 10^-18", "statement": "Converting fraction digits (with optional prepended digits and z leading zeros) gives exactly floor(0.{z zeros}{prepended}{digits} * 10^18); never overflows or panics.", "quantifier": "all digit strings of any length, all z", "why_tests_cant": "unbounded length; block/remainder interplay with the 18-digit cap", "anchors": ["fundu-core/src/parse.rs: Fract::parse_slice, Fract::parse"]}
{"id": "C16", "title": "A number literal denotes its exact decimal value", "statement": "The duration computed from whole digits W, fraction digits F, exponent e, and unit multiplier c*10^u is sign * min(MAX, floor(floor(W.F * 10^(e+u) * 10^18) * |c| / 10^9)) nanoseconds: no float rounding, correct sign, saturation instead of wrap-around. A parser of single durations reports is_negative() for exactly the numbers which count as negative, a parser of multiple durations for exactly the results less than zero.", "quantifier": "all digit strings W,F of any length, all i16 exponents, all multipliers", "why_tests_cant": "unbounded digits, 5 code paths moving digits across the decimal point", "anchors": ["fundu-core/src/parse.rs: DurationRepr::parse, calculate_duration"]}
{"id": "C17", "title": "What you put in is what you get out", "statement": "If no non-zero digit lies beyond the 18th decimal place after shifting, or if the unit coefficient is +-1, the result is floor(exact value in ns); for every other literal it is at most |c|/10^9 + 1 ns below the exact value (never above).", "quantifier": "all literals and multipliers", "why_tests_cant": "unbounded digits", "anchors": ["fundu-core/src/parse.rs: DurationRepr::parse", "fundu/src/lib.rs: crate docs"]}
{"id": "C18", "title": "Equal values parse equal; larger values parse to larger durations", "statement": "Two literals with the same sign and the same rational value (leading zeros, trailing fraction zeros, moving the decimal point against the exponent) give equal durations, and for non-negative literals with the same unit a larger value never gives a smaller duration.", "quantifier": "all pairs of literals", "why_tests_cant": "pairs of unbounded literals", "anchors": ["fundu-core/src/parse.rs: DurationRepr::parse"]}
{"id": "C19", "title": "Numbers closer to zero than 10^-18 are zero and not negative", "statement": "A literal whose shifted absolute value is below 10^-18 gives Duration::ZERO with positive sign, so it is accepted even when negative durations are not allowed.", "quantifier": "all literals", "why_tests_cant": "unbounded digits/exponents", "anchors": ["fundu-core/src/parse.rs: DurationRepr::parse", "fundu-core/src/error.rs: ParseError::NegativeNumber"]}
{"id": "C20", "title": "Exponent range", "statement": "An exponent is accepted iff it denotes an integer in [-32768, 32767] (any number of leading zeros); otherwise PositiveExponentOverflow / NegativeExponentOverflow according to its sign. The bound holds for each number of a text with several durations.", "quantifier": "all exponent digit strings", "why_tests_cant": "unbounded length", "anchors": ["fundu-core/src/parse.rs: parse_exponent"]}
{"id": "C21", "title": "Infinity", "statement": "Unless disabled, `inf`/`infinity` in any letter case with optional sign parse to Duration::MAX / MIN (MIN only if negatives are allowed) and any other continuation is an error; if disabled, infinity is never produced from these words.", "quantifier": "all configs, all case variants, all continuations", "why_tests_cant": "all inputs", "anchors": ["fundu-core/src/parse.rs: parse_infinity_remainder"]}
{"id": "C22", "title": "Negative durations only when allowed", "statement": "If allow_negative is off, every Ok result of parse is non-negative, and in multiple mode not even an intermediate duration is negative.", "quantifier": "all inputs, configs with allow_negative off, all unit/keyword/numeral tables", "why_tests_cant": "all inputs", "anchors": ["fundu-core/src/parse.rs: Parser::parse_single, parse_multiple"]}
{"id": "C23", "title": "Parsing never panics and never breaks the safety contracts of its unsafe code", "statement": "For every UTF-8 input and every config with ASCII-only delimiters and unit tables whose multipliers do not overflow, parse returns Ok or Err: no slice index, subtraction, unwrap, unreachable!, arithmetic overflow or debug assertion fails, and every from_utf8_unchecked receives valid UTF-8 and every unaligned 8 byte read is in bounds.", "quantifier": "all inputs, all such configs and tables", "why_tests_cant": "all inputs", "anchors": ["fundu-core/src/parse.rs: unsafe blocks, unreachable!, expect, unwrap"]}
{"id": "C24", "title": "Parsing multiple durations terminates", "statement": "Every iteration of the multiple-durations loop that does not fail consumes at least one byte, so parse returns for every input after at most len(input) iterations.", "quantifier": "all inputs, configs with ASCII-only delimiters, tables", "why_tests_cant": "non-termination cannot be observed by finite testing", "anchors": ["fundu-core/src/parse.rs: parse_multiple"]}
{"id": "C25", "title": "Error positions lie within the input", "statement": "Every position reported in ParseError::Syntax / ParseError::TimeUnit is at most the byte length of the input.", "quantifier": "all inputs, configs with ASCII-only delimiters, tables", "why_tests_cant": "all inputs", "anchors": ["fundu-core/src/parse.rs: all ParseError::Syntax / TimeUnit constructions"]}
{"id": "C26", "title": "Empty input", "statement": "parse(\"\") is Err(Empty) for every parser, and Err(Empty) is returned for no other input (single and multiple mode).", "quantifier": "all configs with ASCII-only delimiters, tables, inputs", "why_tests_cant": "all inputs", "anchors": ["fundu-core/src/parse.rs: ReprParserTemplate::parse"]}
{"id": "C27", "title": "The parser accepts exactly the documented grammar", "statement": "A parser of single durations returns Ok(d) for a text iff it is an optional sign, (if allowed: delimiters), a number in the documented format (fraction/exponent only if enabled) with optional delimiters (if allowed) and an optional configured time unit (optionally with `ago`), or infinity, or a keyword, or (if number_is_optional) a time unit, or a numeral and a time unit; and d is the value denoted by these parts. A parser of multiple durations accepts exactly the sequences of such durations with the documented connections. The grammar is unambiguous.", "quantifier": "all inputs, all configs with ASCII delimiters, all unit, keyword and numeral tables; multiple mode: inner delimiters are outer delimiters or there are no keywords and numerals", "why_tests_cant": "language equality over unbounded strings", "anchors": ["fundu-core/src/parse.rs: ReprParserSingle", "fundu/src/lib.rs: Format specification"]}
{"id": "C28", "title": "Disabled syntax is rejected", "statement": "With disable_fraction no accepted number contains a decimal point; with disable_exponent no accepted number contains an exponent; with no time units configured no accepted input contains anything after the number; without allow_time_unit_delimiter / allow_sign_delimiter no delimiter is accepted there. With several durations allowed, a number followed by a delimiter has no unit then (a word behind it is rejected unless it can stand alone or is a conjunction), and a sign followed by a delimiter is rejected.", "quantifier": "all inputs", "why_tests_cant": "all inputs", "anchors": ["fundu-core/src/parse.rs: parse_number_fraction, parse_number_exponent, parse_number_time_unit"]}
{"id": "C29", "title": "Multiple durations are summed", "statement": "In multiple mode, a sequence of durations separated by delimiters (or by a digit/sign starting the next duration, or conjunctions) parses to the saturating left-to-right sum of the single values; if no partial sum leaves the range it is the exact sum; with negatives disallowed it is min(MAX, exact sum) and independent of the order (with negatives the order matters, shown by a counterexample).", "quantifier": "all sequences of any length", "why_tests_cant": "unbounded sequences; saturation is order dependent with mixed signs", "anchors": ["fundu-core/src/parse.rs: parse_multiple, try_consume_connection"]}
{"id": "C30", "title": "ago negates", "statement": "With allow_ago, `<number><unit> ago` (any case) denotes the negation of `<number><unit>`; a leading minus and ago cancel.", "quantifier": "all literals, units, configs with allow_ago", "why_tests_cant": "all literals", "anchors": ["fundu-core/src/parse.rs: parse_time_unit"]}
{"id": "C31", "title": "Time units without a number and keywords denote one unit", "statement": "With number_is_optional, a bare (signed) time unit denotes the same duration as the literal 1 with this unit and sign, if the combined power of ten is at most 19 or there is no minus sign (beyond that the sign is lost, a defect shown by a counterexample); a keyword or bare unit denotes the duration of its multiplier, if the combined power of ten is at least -18. In a text with several durations each of these words counts in the same way: replacing some of them by the number 1 with this unit does not change the result.", "quantifier": "all units/multipliers, all inputs", "why_tests_cant": "all multipliers (exponent cases)", "anchors": ["fundu-core/src/parse.rs: parse_duration_with_fixed_number"]}
{"id": "C32", "title": "Numerals denote their multiplier", "statement": "`<numeral><delimiters><unit>` denotes numeral*unit with the correct sign (combined power of ten between -18 and 19, no upper bound without a minus sign); a numeral without a unit is an error. The same holds for each numeral in a text with several durations.", "quantifier": "all numerals, units, configs", "why_tests_cant": "all multipliers", "anchors": ["fundu-core/src/parse.rs: parse_numeral, parse_duration_with_fixed_number"]}
{"id": "C33", "title": "Scan buffering is transparent", "statement": "Reusing a buffered scan never changes what is parsed: the word found is the one an unbuffered scan from the same position finds (whenever inner and outer delimiter agree).", "quantifier": "all inputs, all delimiter functions", "why_tests_cant": "needs particular combinations of keyword table, delimiters and input", "anchors": ["fundu-core/src/parse.rs: Bytes::buffered_advance_to"]}
{"id": "C34", "title": "Standard time unit lookup", "statement": "A DurationParser configured with a list of time units recognises exactly the default identifiers of the units in the list (order and repetitions do not matter), case sensitively, and get_current_time_units returns each configured unit once in ascending order.", "quantifier": "all lists of units, all identifier strings", "why_tests_cant": "unbounded lists/strings", "anchors": ["fundu/src/standard/time_units.rs: TimeUnits"]}
{"id": "C35", "title": "Builder and setters agree", "statement": "DurationParserBuilder / CustomDurationParserBuilder / ConfigBuilder sequences build the parser that results from applying the corresponding setters in the same order, each setter changes only its own option (allow_ago also switches allow_negative on). The defaults are the documented ones: DurationParser::default() is DurationParser::new() and knows exactly the default time units, an empty DurationParser builder has no time units and default_time_units() on it gives the default parser, CustomDurationParser::default(), new(), an empty builder and with_time_units(&[]) agree, and the default settings allow and disable nothing, with seconds as the default unit and ASCII white space as delimiters. The default parser of fundu-systemd reads numbers without unit as seconds, and the default parsers of fundu-systemd and fundu-gnu return the same as the functions of these crates.", "quantifier": "all call sequences", "why_tests_cant": "unbounded sequences", "anchors": ["fundu/src/standard/builder.rs", "fundu/src/custom/builder.rs", "fundu-core/src/config.rs", "fundu/src/standard/parser.rs", "fundu/src/custom/parser.rs"]}
{"id": "C36", "title": "Custom time unit lookup is complete", "statement": "After registering any sequence of custom units, an identifier resolves iff it is non-empty and was registered, and it resolves to one of the (unit, multiplier) pairs registered for it - the pair whose first registration with a usable identifier came first; the length pre-filters never hide an identifier; empty identifiers are ignored.", "quantifier": "all registration sequences, all identifiers", "why_tests_cant": "unbounded sequences", "anchors": ["fundu/src/custom/time_units.rs: CustomTimeUnits"]}
{"id": "C37", "title": "Custom numerals lookup", "statement": "A numeral word resolves to the multiplier of the first registered numeral having this identifier, and to nothing if there is none.", "quantifier": "all registration sequences, all words", "why_tests_cant": "unbounded sequences", "anchors": ["fundu/src/custom/mod.rs: Numerals"]}
{"id": "C38", "title": "systemd: bounded, non-negative results", "statement": "TimeSpanParser::parse_with_max / parse_nanos_with_max return durations in [0, max]; `infinity` is exactly max; values above max give max; the default maxima are u64::MAX micro/nano seconds; they panic iff max is negative.", "quantifier": "all inputs, all max", "why_tests_cant": "all inputs", "anchors": ["fundu-systemd/src/lib.rs: parse_with_max, parse_nanos_with_max"]}
{"id": "C39", "title": "systemd/gnu: surrounding whitespace is irrelevant", "statement": "Adding or removing POSIX whitespace before and after the source never changes the result (trim removes exactly the maximal whitespace prefix and suffix and keeps UTF-8 validity).", "quantifier": "all inputs", "why_tests_cant": "all inputs", "anchors": ["fundu-systemd/src/lib.rs: trim_whitespace", "fundu-gnu/src/util.rs: trim_whitespace"]}
{"id": "C40", "title": "systemd: nanos variant extends the micros variant", "statement": "Every input accepted by the parser without nano seconds is accepted with nano seconds with the same value (same max, same default unit), and parse(default None) equals parse(default Second). For an input which does not contain `ns` both variants have the same result, also the same error.", "quantifier": "all inputs", "why_tests_cant": "all inputs", "anchors": ["fundu-systemd/src/lib.rs: TimeUnits, TimeUnitsWithNanos, parse, parse_nanos"]}
{"id": "C41", "title": "gnu: identifiers are matched case-insensitively and exactly", "statement": "The packed u64 comparison resolves a word iff its ASCII-lowercase form is one of the documented time units / keywords / numerals, for every byte string (no collisions with non letters or multi-byte characters).", "quantifier": "all byte strings", "why_tests_cant": "2^128 words; `| 0x20` maps non letters onto letters or digits", "anchors": ["fundu-gnu/src/lib.rs: TimeUnits::get, TimeKeywords::get, Numerals::get", "fundu-gnu/src/util.rs: to_lowercase_u64"]}
{"id": "C42", "title": "gnu: without fuzzy units the date is irrelevant", "statement": "If parse_fuzzy(s) reports 0 years and 0 months then parse_with_date(s, d) is the parsed duration for every date d.", "quantifier": "all inputs, all dates", "why_tests_cant": "all inputs/dates", "anchors": ["fundu-gnu/src/lib.rs: parse_with_date"]}
{"id": "C43", "title": "gnu: relative dates are calendar correct", "statement": "If parse_with_date(s, Some(d)) = Ok(x) and s has fuzzy units then d + x is the date obtained from d by adding the exact part and then the years and months in the proleptic Gregorian calendar; otherwise Err(Overflow) - never a wrong duration.", "quantifier": "all inputs, all dates", "why_tests_cant": "dates spanning the i64 range", "anchors": ["fundu-gnu/src/lib.rs: parse_with_date", "fundu-gnu/src/datetime.rs"]}
{"id": "C44", "title": "Julian day of a Gregorian date", "statement": "from_gregorian counts days of the proleptic Gregorian calendar: it is 2440588 for 1970-01-01 and increases by exactly one from each valid date to the next (leap years: divisible by 4, not by 100 unless by 400), for all years; None exactly on i64 overflow.", "quantifier": "all valid dates of all years", "why_tests_cant": "infinite calendar", "anchors": ["fundu-gnu/src/datetime.rs: JulianDay::try_from_gregorian"]}
{"id": "C45", "title": "Gregorian date of a Julian day", "statement": "to_gregorian inverts from_gregorian for every valid date, its result is always a valid date, and from_gregorian(to_gregorian(jd)) = jd.", "quantifier": "all Julian days in range", "why_tests_cant": "about 1.8e17 days", "anchors": ["fundu-gnu/src/datetime.rs: JulianDay::to_gregorian"]}
{"id": "C46", "title": "Julian day conversion panics for exactly one day", "statement": "JulianDay::to_gregorian returns None for every i64 outside of [-92231826450597304, 92231826454039543] instead of overflowing, with one exception: for the single day -92233720366826639 the subtraction zero * 100 - 25 overflows (a panic if overflow checks are on); inside of the range it returns a date.", "quantifier": "all i64", "why_tests_cant": "2^64 values, intermediate products", "anchors": ["fundu-gnu/src/datetime.rs: JulianDay::to_gregorian"]}
{"id": "C47", "title": "DateTime arithmetic is exact", "statement": "checked_add_duration/checked_sub_duration move a DateTime by exactly the duration and return None iff the day number leaves i64; duration_since is the exact signed difference, None iff it exceeds Duration's range; a.checked_add_duration(b.duration_since(a)) = b.", "quantifier": "all DateTimes and durations", "why_tests_cant": "carry over midnight in both directions, range ends", "anchors": ["fundu-gnu/src/datetime.rs: DateTime::checked_add_duration, checked_sub_duration, duration_since"]}
{"id": "C48", "title": "DateTime invariant", "statement": "Every DateTime obtainable through the public API has a time of day below 24h, so hour/minute/second/nanos accessors are in range and no unwrap in the arithmetic fails.", "quantifier": "all sequences of API operations", "why_tests_cant": "unbounded histories", "anchors": ["fundu-gnu/src/datetime.rs: DateTime"]}
{"id": "C49", "title": "Calendar arithmetic", "statement": "checked_add_gregorian(y, m, d) gives the date whose month index is 12*year+month shifted by 12*y+m, with day overflow carried into the following month, plus d days, same time of day; (0,0,0) is the identity, 12 months equal 1 year.", "quantifier": "all DateTimes and offsets without overflow", "why_tests_cant": "i64 offsets, negative remainders", "anchors": ["fundu-gnu/src/datetime.rs: DateTime::checked_add_gregorian"]}
{"id": "C50", "title": "Civil time round trip", "statement": "from_gregorian_date_time followed by to_gregorian_date_time returns the same fields for every valid date and time.", "quantifier": "all valid date-times", "why_tests_cant": "infinite calendar", "anchors": ["fundu-gnu/src/datetime.rs: from_gregorian_date_time, to_gregorian_date_time, as_hmsn"]}
{"id": "C51", "title": "floor_div is floor division", "statement": "floor_div(a,b) is the floor of a/b for all b != 0 (except the single overflowing pair i64::MIN/-1).", "quantifier": "all pairs", "why_tests_cant": "2^128 pairs", "anchors": ["fundu-gnu/src/util.rs: floor_div"]}
{"id": "C52", "title": "Integer logarithms are exact", "statement": "floor_log10 / floor_log2 return floor(log10 n) / floor(log2 n) for every non-zero u64 without out-of-bounds table access, and panic for 0.", "quantifier": "all u64", "why_tests_cant": "2^64 values", "anchors": ["fundu-core/src/util.rs: FloorLog10, FloorLog2"]}
{"id": "C53", "title": "DateTimes from other crates and the system clock", "statement": "Converting any valid date-time of the crates time or chrono (and the time of the system clock) never panics and yields the DateTime of the same civil date and time; only chrono's leap seconds (nanosecond >= 10^9) panic. now_utc is the unix epoch plus or minus the distance of the system time.", "quantifier": "all civil date-times with i32 years, all system times", "why_tests_cant": "The domain is all dates and times of all years", "anchors": ["fundu-gnu/src/datetime.rs: From<OffsetDateTime>, From<PrimitiveDateTime>, From<chrono::DateTime>, From<chrono::NaiveDateTime>, now_utc_with_system_time"]}
{"id": "C54", "title": "DateTime order is chronological", "statement": "The derived ordering and equality of DateTime agree with the order of the instants, for all DateTimes obtainable through the API.", "quantifier": "all pairs of DateTimes", "why_tests_cant": "Pairs of 2^64 * 86400*10^9 values; holds only because of the invariant that the time of day is below 24h", "anchors": ["fundu-gnu/src/datetime.rs: DateTime (derive Ord)"]}
{"id": "C55", "title": "Time units have their documented identifiers and lengths", "statement": "For every unit of the documented table (identifier, length; a year is 365.25 days, a month a twelfth of it) which a DurationParser is configured with, parsing an optional sign, digits W and the identifier gives exactly +-W*length nanoseconds, saturating at Duration::MAX/MIN; with a decimal point and up to 18 fraction digits it is the exact value cut off to nanoseconds; a number without a unit has the default unit (Second).", "quantifier": "all lists of time units, all units of the table, all digit strings (any length), all signs", "why_tests_cant": "the digit strings are unbounded and tests check a handful of literals per unit", "anchors": ["fundu-core/src/time.rs: TimeUnit::multiplier, TimeUnit::default_identifier", "fundu/src/standard/parser.rs: DurationParser::with_time_units, DurationParser::parse", "fundu/src/standard/time_units.rs: TimeUnits::get"]}
{"id": "C56", "title": "DurationParser and parse_duration never panic", "statement": "A DurationParser with any time units, on which any setters were called (delimiters matching ASCII bytes only), returns Ok or Err for every input; parse_duration never hits its unwrap and returns the std::time::Duration of the same length as the default parser's result, or the same error.", "quantifier": "all inputs, all lists of time units, all sequences of setter calls with ASCII-only delimiters", "why_tests_cant": "inputs and option combinations are unbounded", "anchors": ["fundu/src/standard/parser.rs: DurationParser::parse, parse_duration", "fundu-core/src/parse.rs: Parser::parse", "fundu-core/src/time.rs: TryFrom<Duration> for std::time::Duration"]}
{"id": "C57", "title": "CustomDurationParser never panics with checked constructors", "statement": "A CustomDurationParser whose custom units and keywords come from CustomTimeUnit::new / with_default / TimeKeyword::new returns Ok or Err for every input: the overflow check in the constructors is sufficient for every multiplication made while parsing, also with `ago`; with numerals this holds if the products of numerals and units are representable.", "quantifier": "all inputs, all sequences of registrations and setter calls with ASCII-only delimiters", "why_tests_cant": "inputs, tables and option combinations are unbounded", "anchors": ["fundu/src/custom/parser.rs: CustomDurationParser::parse", "fundu/src/custom/time_units.rs: CustomTimeUnit::new, TimeKeyword::new", "fundu-core/src/parse.rs: DurationRepr::parse"]}
{"id": "C58", "title": "systemd: time spans have their exact documented value", "statement": "A word is a time unit of fundu-systemd iff it is one of the documented identifiers (with the nanosecond units only in the *_nanos functions), and a sequence of time spans (numbers with optional decimal point and a documented unit, or a unit alone, separated by any POSIX whitespace, which may be absent in front of a digit or sign) evaluates to the exact sum of the amounts in nanoseconds, or to max if that is smaller.", "quantifier": "all words; all sequences of time spans of any length and any whitespace, all max, all default units", "why_tests_cant": "infinitely many sequences, numbers and ways to separate them", "anchors": ["fundu-systemd/src/lib.rs: TimeUnits::get, TimeUnitsWithNanos::get, parse_with_max, parse_nanos_with_max"]}
{"id": "C59", "title": "gnu: parsing never panics", "statement": "For every text, parse_fuzzy returns Ok or Err (Empty only for whitespace-only texts, error positions lie inside the text); parse and parse_with_date return Ok or Err for every date whose day number is at least -9.2e16 (which covers every date of the time and chrono crates). The only panic is the one inherited from the conversion of one single day number to a Gregorian date.", "quantifier": "all UTF-8 texts, all dates", "why_tests_cant": "all texts and all dates; the panic occurs for one day out of 2^64", "anchors": ["fundu-gnu/src/lib.rs: parse, parse_with_date, parse_fuzzy", "fundu-gnu/src/datetime.rs: JulianDay::to_gregorian"]}
{"id": "C60", "title": "gnu: parse_fuzzy accepts exactly the relative times and adds them up exactly", "statement": "parse_fuzzy(s) = Ok((years, months, duration)) exactly if s without surrounding white space is a sequence of relative times (sign, number with optional fraction for seconds only, numeral, keyword or unit alone, time unit, ago), and the three results are the sums of the parts from left to right, saturating at the bounds of i64 and of the duration. Every other text is rejected, no text has two readings.", "quantifier": "all UTF-8 texts", "why_tests_cant": "infinitely many texts, arbitrarily long sequences and numbers", "anchors": ["fundu-gnu/src/lib.rs: RelativeTimeParser::parse_fuzzy, DurationReprParser", "fundu-core/src/parse.rs: ReprParserMultiple"]}
{"id": "C61", "title": "gnu: texts as one writes them mean what they say", "statement": "Any sequence of phrases separated by white space - an optional sign, then a whole number (or a decimal number of seconds), a numeral or nothing, then a time unit with or without `ago`, or a keyword - is accepted and yields the sum of what the phrases say, whatever the length of the numbers and of the sequence. A fraction together with any other unit than seconds is an error.", "quantifier": "all sequences of phrases, all numbers", "why_tests_cant": "unbounded sequences and numbers; interactions between neighbouring phrases (ago, units alone, keywords)", "anchors": ["fundu-gnu/src/lib.rs: RelativeTimeParser::parse_fuzzy, DurationReprParser"]}
{"id": "C62", "title": "gnu: case of letters is irrelevant", "statement": "Two texts which differ only in the case of ASCII letters are both rejected or have the same years, months and duration.", "quantifier": "all pairs of texts differing in case", "why_tests_cant": "all texts; the case folding of words uses bit tricks on packed integers", "anchors": ["fundu-gnu/src/lib.rs: parse_fuzzy", "fundu-gnu/src/util.rs: to_lowercase_u64", "fundu-core/src/parse.rs: next_is_ignore_ascii_case"]}
{"id": "C63", "title": "Allowing more never changes the meaning of accepted texts", "statement": "If a second parser allows everything the first one allows (negative durations, ago, delimiters after signs and before units, optional numbers, exponents, fractions, infinity) and has at least its time units with the same meaning, then every text accepted by the first is accepted by the second with the same duration. A parser of several durations accepts every text accepted by the parser of single durations, with the same duration. Delimiters and identifiers must not overlap (no letters, digits or points as delimiters; identifiers without delimiters, digits or signs, not starting with inf); with several durations the delimiter in front of units may be made optional only without conjunctions and optional numbers (otherwise it is false: '1 and 2', '1 m').", "quantifier": "all pairs of configurations and unit tables in this relation, all texts", "why_tests_cant": "quantifies over pairs of configurations (2^8 options, arbitrary tables) and all texts", "anchors": ["fundu-core/src/config.rs: Config", "fundu-core/src/parse.rs: ReprParserTemplate, ReprParserSingle, ReprParserMultiple", "fundu/src/standard/parser.rs: DurationParser"]}
{"id": "C64", "title": "allow_negative is an exact gate", "statement": "For single durations, parsing with allow_negative(false) gives the error NegativeNumber exactly where allow_negative(true) gives a duration marked as negative, and otherwise exactly the same result or error. For several durations: the results or errors are the same or the error is NegativeNumber; for a text accepted with allow_negative(true) it is NegativeNumber iff one of the durations in the text is negative, even if the sum is not.", "quantifier": "all configurations, tables and texts", "why_tests_cant": "relates two runs of the parser for all configurations and texts", "anchors": ["fundu-core/src/parse.rs: Parser::parse_multiple, Parser::parse_single", "fundu-core/src/config.rs: Config::allow_negative"]}
{"id": "C65", "title": "Settings without effect", "statement": "The default_multiplier has no effect on parsing. If only one duration is allowed, the outer delimiter and the conjunctions have no effect (as documented: used only if allow_multiple is set), and the inner delimiter has none unless a delimiter after the sign or before the unit or ago is allowed or there are numerals. The default unit matters only for texts which are numbers without a unit.", "quantifier": "all configurations, tables and texts", "why_tests_cant": "non-interference: compares all pairs of runs which differ in one setting", "anchors": ["fundu-core/src/config.rs: Config", "fundu-core/src/parse.rs: ReprParserSingle, ReprParserTemplate"]}
{"id": "C66", "title": "Errors tell the truth about the text", "statement": "Whatever error a parser returns, what it says about the text is true. The position splits the text at the border of a character. InvalidTimeUnit, NoTimeUnitsAllowed, ExpectedEndOfInput quote the remainder behind the position (non-empty; there is no time unit there resp. the parser has none); delimiter at start/end: the position is 0 and a delimiter is there resp. only delimiters follow; premature ends: the position is the end and an exponent letter, its sign, or a sign is in front; invalid characters: the reported character is the first one behind the position and not the expected one; conjunction errors: a registered conjunction is in front resp. is all that follows; fraction or exponent not allowed: the setting is on and a point or an exponent letter is there; exponent overflows: the text contains an exponent with that sign and digits above 32767 resp. 32768; Empty: the text is empty; NegativeNumber: negative numbers are not allowed; Overflow is never returned by the core parser, and by fundu-gnu only if years or months are in the text. fundu-systemd and fundu-gnu: the same about the trimmed text.", "quantifier": "all configurations (ASCII delimiters, UTF-8 conjunctions), tables, texts", "why_tests_cant": "must hold for every input and configuration; tests compare a few messages", "anchors": ["fundu-core/src/parse.rs: ReprParserTemplate, ReprParserSingle, ReprParserMultiple, Bytes", "fundu-gnu/src/lib.rs: DurationReprParser, RelativeTimeParser::parse_fuzzy", "fundu-systemd/src/lib.rs: TimeSpanParser"]}
{"id": "C67", "title": "Messages of errors are unambiguous", "statement": "The message of an error (Display) determines its kind, position and reason; the position is its last word in decimal digits; the messages of all errors a parser can return are valid UTF-8; an invalid time unit is reported with the text from the position to the end; errors of conversions to other duration types become NegativeNumber resp. Overflow exactly as documented.", "quantifier": "all errors, configurations and texts; all durations", "why_tests_cant": "injectivity over all pairs of errors", "anchors": ["fundu-core/src/error.rs: Display for ParseError, From<TryFromDurationError>, Display for TryFromDurationError", "fundu-core/src/parse.rs"]}
{"id": "C68", "title": "Texts written one after the other add up", "statement": "With several durations allowed: if two texts are accepted and the second does not start with a delimiter, a conjunction, a time unit or the word ago, then the first text, delimiters (or delimiters, a conjunction and delimiters) and the second text together are accepted; the durations are those of the first followed by those of the second, and without negative durations the result is the sum of the two results, at most the maximum. The same holds for every function of fundu-systemd and its maximum, with white space of any kind between the texts. It is the very duration which saturating_add returns for the two results, also with negative durations if the second text is a single duration.", "quantifier": "all pairs of accepted texts, all delimiter runs, all configurations with orderly words", "why_tests_cant": "unbounded texts; joining can change how the junction is read (units, conjunctions, ago, exponents), which must be excluded for every text", "anchors": ["fundu-core/src/parse.rs: ReprParserMultiple, Parser::parse_multiple", "fundu-systemd/src/lib.rs: parse, parse_nanos"]}
{"id": "C69", "title": "Ready-made lists of custom time units", "statement": "A CustomDurationParser with time units with their default identifiers - in particular DEFAULT_TIME_UNITS and DEFAULT_ALL_TIME_UNITS - gives, after the same calls of setters, the same result (duration or error) for every text as the DurationParser with these units. SYSTEMD_TIME_UNITS has exactly the identifiers documented for fundu-systemd with their lengths, except the microsecond with the Greek letter mu.", "quantifier": "all lists of units, sequences of setter calls, texts, identifiers", "why_tests_cant": "two lookup implementations must agree on every text and every setting", "anchors": ["fundu/src/custom/time_units.rs: SYSTEMD_TIME_UNITS, DEFAULT_TIME_UNITS, DEFAULT_ALL_TIME_UNITS, CustomTimeUnits", "fundu/src/custom/parser.rs: parse", "fundu/src/standard/parser.rs: parse"]}
{"id": "C70", "title": "Limits and equality of custom time units", "statement": "CustomTimeUnit::new and TimeKeyword::new panic exactly if the multiplier is outside of the limits for the base unit (coefficient times that of the base unit within i64, sum of exponents within i16). Two custom time units are equal, and hash equal, iff base unit and multiplier are equal; an identifier registered with equal units means this unit in any order of registration.", "quantifier": "all base units, identifiers and multipliers; all registrations", "why_tests_cant": "all i64 coefficients and i16 exponents; all registration sequences", "anchors": ["fundu/src/custom/time_units.rs: CustomTimeUnit, TimeKeyword, PartialEq, Hash"]}
{"id": "C71", "title": "The error for every rejected text", "statement": "For every text a parser does not accept the error is determined by the text: there is a specification which says for each part of the grammar what can be wrong with it, and parse returns Err(e) iff the text has such a mistake, where e has the kind, the position (where the remaining text starts) and the reason of the first mistake. Every text is a duration (or a sequence of durations) or has a mistake, never both, and mistakes of the same text give the same error. No parser returns Overflow or the error about a delimiter at the start of the input.", "quantifier": "all texts, all settings with ASCII delimiters, all tables of time units, keywords and numerals (in multiple mode each inner delimiter is an outer delimiter, or there are no keywords and numerals)", "why_tests_cant": "the error depends on the whole text, the settings and the tables; tests only show the errors of chosen texts", "anchors": ["fundu-core/src/parse.rs: Parser::parse, DurationReprParserTemplate, DurationReprParserSingle, DurationReprParserMultiple, Bytes", "fundu-core/src/error.rs: ParseError", "fundu-systemd/src/lib.rs: TimeSpanParser"]}
{"id": "C72", "title": "Constructors of Duration", "statement": "Duration::positive(s, n) and Duration::negative(s, n) return the duration of s seconds plus n nanoseconds with this sign, also for n >= 10^9 (whole seconds are carried), and panic iff this length cannot be represented. Every duration is the result of such a call with its own seconds and sub-second nanoseconds.", "quantifier": "all u64 seconds, all u32 nanoseconds, all durations", "why_tests_cant": "2^96 arguments; the limit is reached only through the carry", "anchors": ["fundu-core/src/time.rs: Duration::positive, Duration::negative"]}
{"id": "C73", "title": "What a custom parser knows", "statement": "After any sequence of calls that add time units, keywords and numerals or set options, is_empty() is true iff no time unit with a non-empty identifier was added (keywords and numerals do not count), and get_time_unit_by_id knows exactly the non-empty identifiers of the added time units; so a parser is empty iff it knows no identifier.", "quantifier": "all call sequences, all identifiers", "why_tests_cant": "unbounded histories", "anchors": ["fundu/src/custom/parser.rs: is_empty, get_time_unit_by_id", "fundu/src/custom/time_units.rs"]}
{"id": "C74", "title": "Julian day of a date and time", "statement": "DateTime::as_julian_day is the day number of the date in the proleptic Gregorian calendar regardless of the time of day, equals the number of whole days since the start of day 0 rounded down (also before day 0), never decreases with time, and to_gregorian_date returns the valid date with this number.", "quantifier": "all dates and times", "why_tests_cant": "2^64 days with 86400*10^9 times of day each", "anchors": ["fundu-gnu/src/datetime.rs: DateTime::as_julian_day, from_gregorian_date_time, to_gregorian_date"]}
{"id": "C75", "title": "The error of fundu-gnu for each text", "statement": "parse_fuzzy returns an error exactly for the texts which, without white space around them, have a mistake, and kind, reason and position of the error are those of the first mistake: nothing at all, a sign without anything behind it, a point without digits, an exponent, a fraction without whole digits or without fractional digits, a fraction with another unit than seconds, a numeral without a time unit, or a word which is not known. Each text is either a relative time or has a mistake, and the error is unique. parse_with_date and parse return these errors and otherwise only Overflow, if there are years or months and the date is out of range.", "quantifier": "all texts, all dates", "why_tests_cant": "infinitely many wrong texts", "anchors": ["fundu-gnu/src/lib.rs: parse_fuzzy, parse_with_date, DurationReprParser", "fundu-core/src/parse.rs: ReprParserMultiple"]}
{"id": "C76", "title": "Every duration can be written and read back exactly", "statement": "A Duration written as an optional sign, its whole seconds in decimal (with any number of leading zeros), a point and nine decimal places is parsed to an equal Duration, whatever time units, keywords and numerals the parser has and whatever its options are, as long as fractions are not disabled, the default unit is the second and negative durations are allowed if it is negative. Every Duration can be written so, two different ones never with the same text, and parse_duration gives back every std::time::Duration.", "quantifier": "all durations, all parsers and configurations with these options", "why_tests_cant": "2^64*10^9*2 durations and all configurations", "anchors": ["fundu-core/src/parse.rs: Parser::parse, DurationRepr", "fundu/src/standard/parser.rs: parse_duration"]}
{"id": "C77", "title": "A leading sign only changes the sign", "statement": "A plus sign in front of a text without a sign is accepted exactly if the text is, and gives the same duration. If negative durations are allowed, a minus sign in front of a text without a sign is accepted exactly if the text without it is, and gives the negated duration (units, keywords and numerals with powers of ten of at most 19, see finding F1). For parsers of several durations a leading plus sign changes nothing and a leading minus sign negates the first duration only.", "quantifier": "all texts, all configurations, all parsers of one duration (plus sign: also of several)", "why_tests_cant": "infinitely many texts, all configurations and tables", "anchors": ["fundu-core/src/parse.rs: parse_sign, DurationRepr::parse"]}
{"id": "C78", "title": "Durations as one writes them", "statement": "A sequence of phrases - each a sign, then a number with or without a fraction and a time unit, a time unit alone, a number alone, a keyword, a numeral and a time unit, or infinity, then possibly ago, joined by white space or by a conjunction between white space, each if the parser's settings allow it - is parsed to the sum of what the phrases say (minus, ago and negative keywords and numerals cancel each other, infinity counts as the maximum), sticking to the representable range after each phrase; it is the exact sum if no amount and no partial sum leaves the range.", "quantifier": "all sequences of phrases, all parsers of several durations whose identifiers and conjunctions are distinguishable words; DurationParser with any time units and settings and CustomDurationParser with any time units, keywords, numerals and settings in particular", "why_tests_cant": "sentences of any length, all unit tables and settings", "anchors": ["fundu-core/src/parse.rs: Parser::parse, ReprParserMultiple", "fundu-core/src/config.rs: Config", "fundu/src/standard/parser.rs: DurationParser", "fundu/src/custom/parser.rs: CustomDurationParser"]}
{"id": "C79", "title": "The regular expression of the fuzz target", "statement": "For a parser of one duration, build the regular expression of the project's own fuzz target from its settings and words (sign, infinity in any case, keywords, base, exponent, delimiters, time units, ago, numerals; each part only if its setting allows it). Every text the parser accepts, or rejects only for being negative, matches the expression. Conversely, if the words are orderly, every text that matches is accepted, or is rejected with NegativeNumber (only if negative durations are not allowed), or with an exponent overflow (only if the text has an exponent which does not fit into 16 bits).", "quantifier": "all texts; all settings and word tables; in particular DurationParser with any time units and setter calls, CustomDurationParser after any calls, and the parser of the fuzz target with all 256 combinations of its settings and all choices of keywords", "why_tests_cant": "the fuzz target samples inputs and settings; the claim is about all of them", "anchors": ["fundu/fuzz/fuzz_targets/parse_single.rs: generate_regex, fuzz_target!", "fundu-core/src/parse.rs: Parser::parse, ReprParserSingle", "fundu/src/standard/parser.rs: DurationParser", "fundu/src/custom/parser.rs: CustomDurationParser"]}
{"id": "C80", "title": "Without time units the numbers are those of f64", "statement": "DurationParser::without_time_units accepts exactly the texts which <f64 as FromStr> accepts, apart from NaN, negative numbers and exponents outside of 16 bits: a number v gives the duration of v seconds cut off to nanoseconds, or the maximum; a number with an exponent which does not fit into 16 bits gives the overflow error of the exponent's sign; a negative number gives NegativeNumber iff its absolute value is at least 1e-18 (otherwise zero) unless negative durations are allowed; inf and infinity give the maximum; NaN and everything else is an error.", "quantifier": "all texts, with and without allow_negative", "why_tests_cant": "the fuzz target compares samples with f64 up to an error of 1024 seconds; the claim is exact and about all texts", "anchors": ["fundu/fuzz/fuzz_targets/f64_like_input.rs", "fundu/src/standard/parser.rs: DurationParser::without_time_units", "fundu-core/src/parse.rs: Parser::parse"]}
{"id": "C81", "title": "Length and kind of gaps have no influence", "statement": "Two texts which differ only in their gaps (each non-empty run of delimiter characters of the first corresponds to a non-empty run of the second, everything else is equal) are both rejected or both accepted with the same duration, for parsers whose inner and outer delimiter are the same set without signs. This holds for DurationParser with every set of time units, fundu_systemd::TimeSpanParser (also at the ends of the text) and fundu_gnu's parsers (also at the ends of the text).", "quantifier": "all pairs of texts which differ only in gaps, all configurations with one delimiter, all time units, keywords and numerals in the documented form", "why_tests_cant": "a relation between two runs of a parser on inputs of any length; the parsers consume delimiters at half a dozen places", "anchors": ["fundu-core/src/parse.rs: try_consume_delimiter, buffered_advance_to", "fundu-core/src/config.rs: ConfigBuilder::inner_delimiter, outer_delimiter", "fundu-gnu/src/lib.rs: RelativeTimeParser::parse_fuzzy", "fundu-systemd/src/lib.rs: TimeSpanParser::parse"]}
{"id": "C82", "title": "Relative times written one after the other add up", "statement": "If fundu_gnu accepts two texts and the second does not start with a time unit, it accepts both with white space in between. The years, months and duration of the joined text are those of the first to which the parts of the second are added from left to right with saturation; as long as no partial sum leaves the range, the result is the exact sum of the two results.", "quantifier": "all pairs of texts accepted by parse_fuzzy, all white space", "why_tests_cant": "a relation between three runs on texts of any length; a time unit at the start of the second text would be taken as unit of the last number of the first one", "anchors": ["fundu-gnu/src/lib.rs: RelativeTimeParser::parse_fuzzy, parse_fuzzy_with_mode", "fundu-core/src/parse.rs: Multiple"]}
{"id": "C83", "title": "Serialization keeps values", "statement": "With the feature serde: a Duration, TimeUnit, Multiplier, JulianDay, DateTime, TryFromDurationError or ParseError which is serialized and deserialized is the same value (in formats with and without field names, in any order of the fields, ignoring additional fields). Whatever data is read, a Duration which is returned is valid (less than 10^9 nanoseconds beside the seconds) and has the exact value of its fields; otherwise an error is returned. The names of the fields and variants which are stored are fixed, so data stored earlier stays readable. Every pair of a u64 number of seconds and a u32 number of nanoseconds whose sum fits is read. In a format with field names the order of the fields does not matter, and a missing field or one which occurs twice is an error.", "quantifier": "all values of the types, all data of serde's data model", "why_tests_cant": "the tests have one value per type and no malformed data", "anchors": ["fundu-core/src/time.rs: TimeUnit, Multiplier, Duration", "fundu-core/src/error.rs: ParseError, TryFromDurationError", "fundu-gnu/src/datetime.rs: JulianDay, DateTime"]}
{"id": "C84", "title": "The relative times of fundu-gnu are a regular language", "statement": "A text which matches the regular expression of the fuzz target of fundu-gnu is accepted by parse_fuzzy, or is rejected with one of the two errors about fractions, and then the fuzz target's regular expression of wrong fractions finds something in it; parse and parse_with_date can in addition only report an overflow of the date. Vice versa a text which is accepted matches, or has white space around it, or the fuzz target's control regular expression (keyword or numeral directly behind a number) finds something in it. Without these exceptions accepting and matching are the same.", "quantifier": "all texts, all dates", "why_tests_cant": "the fuzz target compares the parser with the regular expressions on generated inputs only; the two languages are infinite", "anchors": ["fundu-gnu/fuzz/fuzz_targets/parsing.rs generate_regex", "fundu-gnu/fuzz/fuzz_targets/parsing.rs generate_control_regex", "fundu-gnu/fuzz/fuzz_targets/parsing.rs generate_fraction_control_regex", "fundu-gnu/src/lib.rs RelativeTimeParser::parse_fuzzy", "fundu-gnu/src/lib.rs RelativeTimeParser::parse_with_date"]}
{"id": "C85", "title": "What the example programs print can be read back", "statement": "The example programs accept exactly the texts their parser accepts, never panic, and print what they say: 'systemd' prints the microseconds (rounded down) and a readable text which its own parser, the systemd crate's parser and the program itself read back as exactly the same duration; 'gnu' prints the whole seconds with their sign and a text which is read back as these seconds, unless the result is not zero but shorter than a second; 'custom' prints a column of fixed width, which parse_duration reads back exactly; 'convert' prints the exact and saturated conversions; 'simple' does not panic; 'clap_builder' and 'clap_derive' print the duration or the saturated sum of two durations and panic exactly if an argument is no duration; 'chrono' of fundu-gnu prints the whole seconds, saturated at the bounds of chrono::Duration, or the overflow error.", "quantifier": "all valid UTF-8 inputs, all durations", "why_tests_cant": "unbounded texts and 2^64 * 10^9 durations; the examples have no tests", "anchors": ["fundu/examples/systemd.rs", "fundu/examples/gnu.rs", "fundu/examples/custom.rs", "fundu/examples/convert.rs", "fundu/examples/simple.rs", "fundu/examples/clap_builder.rs", "fundu/examples/clap_derive.rs", "fundu-gnu/examples/chrono.rs"]}
{"id": "C86", "title": "A parser which knows more words keeps the meaning of what it accepted", "statement": "If time units, keywords or numerals are added to a parser, every text it accepted before is still accepted with the same result, provided that the words are orderly (no delimiters, digits or signs in them, not starting with a point or 'inf', not 'ago', no word in two of the three tables) and no identifier is given a second meaning. For several durations every inner delimiter must also be an outer one. Without the condition this is false: an identifier of a time unit which is also made a keyword changes its meaning.", "quantifier": "all valid UTF-8 inputs, all configurations, all sequences of calls of time_unit(s), keyword(s), numeral(s) added to any sequence of calls", "why_tests_cant": "unbounded inputs and unbounded tables of identifiers: a longer identifier could shadow a shorter one in some text", "anchors": ["fundu/src/custom/parser.rs: CustomDurationParser::time_unit, keyword, numeral", "fundu/src/custom/time_units.rs: CustomTimeUnits", "fundu-core/src/parse.rs: Parser::parse"]}
{"id": "C87", "title": "The order in which words are added does not matter", "statement": "Two custom parsers which were given the same words with the same meanings, in any order, in any groups and any number of times, and the same options, give the same result for every text, also the same errors, provided that no word of a table has two meanings. DurationParser::with_time_units depends only on the set of the given time units. With two meanings for one word the order matters, shown by a counterexample.", "quantifier": "all sequences of calls of time_unit(s), keyword(s), numeral(s) and of the option methods, all inputs", "why_tests_cant": "unbounded sequences of calls and inputs; the internal table sorts, merges and filters by length", "anchors": ["fundu/src/custom/time_units.rs: CustomTimeUnits::add_custom_time_unit, CustomTimeUnits::get", "fundu/src/custom/parser.rs: CustomDurationParser::time_unit, keyword, numeral", "fundu/src/standard/time_units.rs: TimeUnits::with_time_units"]}
{"id": "C88", "title": "The case of letters matters in identifiers only", "statement": "If the words a parser knows (time units, keywords, numerals) are known in upper and lower case with the same meaning, then two texts which differ only in the case of ASCII letters have the same result or are both rejected: 'ago', 'inf', 'infinity', conjunctions and the 'e' of exponents are read in any case. In particular this holds for DurationParser::without_time_units with any other options. Identifiers themselves are case sensitive.", "quantifier": "all valid UTF-8 inputs, all configurations whose delimiters do not distinguish case, all tables; all sequences of calls for CustomDurationParser", "why_tests_cant": "unbounded inputs, every position of every letter in the input", "anchors": ["fundu-core/src/parse.rs: Bytes::next_is_ignore_ascii_case, Parser::parse", "fundu/src/standard/parser.rs: DurationParser::without_time_units", "fundu/src/custom/parser.rs: CustomDurationParser"]}
{"id": "C89", "title": "Which custom words can be used", "statement": "Identifiers of custom time units, keywords and numerals are arbitrary texts. An identifier which cannot be used under the configuration (a time unit starting with a digit while no delimiter or numeral can stand in front of it, one starting with e or a point while no exponent or fraction can stand in front of it, a word which contains a byte that ends words, a bare word starting with a digit, a point or inf) has no influence: removing or changing its entry changes neither the accepted texts nor the results. Every other time unit can be used: behind one of the numbers 1, 1. and 1e0, or behind a number and a delimiter, or alone it is read and denotes its unit times its multiplier; so does every usable keyword.", "quantifier": "all configurations with ASCII delimiters, all tables of units, keywords and numerals, all texts", "why_tests_cant": "which identifiers are shadowed by number, exponent, infinity and delimiter syntax depends on the interplay of ten options with an unbounded set of identifiers and texts", "anchors": ["fundu-core/src/parse.rs: ReprParserTemplate::parse_keyword, parse_time_unit, parse_number_time_unit, parse_numeral, parse_number_exponent", "fundu/src/custom/parser.rs: CustomDurationParser::parse", "fundu/src/custom/time_units.rs: CustomTimeUnit"]}
{"id": "C90", "title": "Negating every duration of a text negates the result", "statement": "For a parser of several durations which allows negative ones: if the sign of each duration of an accepted text is exchanged (a minus sign is written in front of a duration without a sign, plus and minus signs are swapped), the new text is accepted too and its result is exactly the negation of the old result, including saturation at the two limits; the new text is rejected if the old one is. Every accepted text has such an opposite text.", "quantifier": "all texts, all configurations with white space like delimiters and conjunctions without signs, all tables of units, keywords and numerals (with powers of ten up to 19)", "why_tests_cant": "holds for all numbers of durations and all ways to separate them (nothing, delimiters, conjunctions, ago), where a sign also moves the ends of words", "anchors": ["fundu-core/src/parse.rs: Parser::parse_multiple, ReprParserMultiple, DurationRepr::parse", "fundu-core/src/time.rs: Duration::saturating_add"]}
{"id": "C91", "title": "The opposite of a relative time", "statement": "Writing the other sign in front of each part of a relative time of fundu_gnu (a minus sign where there is none, the other sign where there is one) gives a relative time which is accepted, too, with the negated number of nanoseconds (also if it saturates). The years and months are negated as well, unless one of them, in a part or a partial sum, is at the limits of i64. Every accepted text has such an opposite.", "quantifier": "all accepted relative times, with all spacings, words, numerals and ago", "why_tests_cant": "the sign of each part interacts with what separates the parts, with ago and with saturation; tests have a few texts", "anchors": ["fundu-gnu/src/lib.rs: parse_fuzzy, RelativeTimeParser", "fundu-core/src/parse.rs: ReprParserMultiple"]}
{"id": "C92", "title": "systemd: exactly the documented time spans, and the error of each other text", "statement": "For every default unit, every limit and every text which, without the white space around it, is not infinity: fundu_systemd::parse (and parse_nanos) accept it if and only if it is a sequence of time spans: numbers like 1, 1.5, 1. or .5 with an optional unit of the documented table, or just a unit, each with an optional plus sign and connected by any white space or none; the result is the sum of the nanoseconds of the spans, rounded towards zero each, or the limit if the sum is greater. A minus sign is only accepted in front of spans which are less than 10^-18. For every other text the error is the one of its first mistake from the left: no text, a sign without number, a point without digits, an exponent, a word which is no unit, or a negative span.", "quantifier": "all UTF-8 texts, default units, limits which are not negative, with and without the nanosecond units", "why_tests_cant": "an if and only if over all texts; the tests have a few hundred texts and only check the results of these", "anchors": ["fundu-systemd/src/lib.rs: parse, parse_nanos, TimeSpanParser, CONFIG, TimeUnits, TimeUnitsWithNanos", "fundu-core/src/parse.rs: ReprParserMultiple"]}
{"id": "C93", "title": "When parsing panics", "statement": "Multipliers are pairs of an i64 and an i16, and those of a numeral, of the base unit and of the custom time unit are multiplied. Parsing panics if and only if the text is well-formed up to and including a duration for which such a product is out of range (for several durations: those in front of it are accepted, whatever follows), regardless of the number and of whether the duration would be rejected as negative; the panic is always that of the multiplication. So every text is a duration, has a mistake or has a product out of range, exactly one of these. A custom parser whose time units and keywords come from their constructors panics exactly for texts with a numeral and a time unit whose product is out of range.", "quantifier": "all UTF-8 texts, all configurations with ASCII delimiters, all tables of time units, keywords and numerals, all sequences of calls on a custom parser", "why_tests_cant": "an exact description of all panics; tests can only show a few inputs that panic or don't", "anchors": ["fundu-core/src/parse.rs: DurationRepr::parse, parse_duration_with_fixed_number", "fundu-core/src/time.rs: Multiplier Mul", "fundu/src/custom/parser.rs: CustomDurationParser::parse"]}
{"id": "C94", "title": "gnu: every relative time can be written and read back", "statement": "For all numbers of years and months (any i64, including the smallest) and every Duration, the text made of the years, the months (whole numbers with a sign and any number of leading zeros) and the seconds with nine decimal places of the duration, with the words years, months, seconds, is read by fundu_gnu::parse_fuzzy as exactly these years, months and this duration, without saturation. Every relative time can be written this way and no text stands for two different ones. Without years and months parse and parse_with_date return the duration for every date.", "quantifier": "all i64 years and months, all Durations, all ways to write the signs and leading zeros, all dates", "why_tests_cant": "2^64 * 2^64 * 2^95 relative times; the limits of i64, of u64 seconds and signs of all three parts interact with saturation", "anchors": ["fundu-gnu/src/lib.rs: parse_fuzzy, parse_with_date, parse, RelativeTimeParser"]}
{"id": "C95", "title": "gnu: how long months and years are", "statement": "If parse_with_date accepts a relative time with n months (12 for each year), the result is the exact part plus the lengths in days of n successive months of the calendar, beginning with the month of the date reached by the exact part (for negative n: of the months before it); the day of the month has no influence. So a month has 28 to 31 days and a year 365 or 366 days for every date, 400 years have 146097 days, and for the same date and exact part more months are longer by at least 28 days each. DateTime::checked_add_gregorian moves the day by the same number of days. (A longer exact part can lead to an earlier result, shown by a counterexample.) An accepted text gives the same result for two dates which are a multiple of 400 years (146097 days) apart, and for two dates from which the exact part of the text leads into the same month. For a later date the same text leads to a later instant, or to one which is less than three days earlier.", "quantifier": "all accepted relative times, all dates (all i64 day numbers with a Gregorian date), all i64 years and months", "why_tests_cant": "holds for all dates and all numbers of months; days which do not exist in the target month are carried into the next one", "anchors": ["fundu-gnu/src/lib.rs: parse_with_date", "fundu-gnu/src/datetime.rs: DateTime::checked_add_gregorian, JulianDay"]}
{"id": "C96", "title": "The documented format specification", "statement": "Every text of the format specification in the documentation of fundu (Durations, Conjunction, Duration, Number, Digits, Exp ...) with the special cases listed below it is accepted by a parser with the corresponding settings, and the result is the sum of the amounts it says: each number with its decimals beyond the 18th cut off, times the length of its unit, cut off at whole nanoseconds, negative for a minus sign or ago (not both), infinity and too large amounts saturating; one duration if parse_multiple is not enabled. This needs the following corrections of the documented rules, which are proved or shown to be necessary: an exponent alone is not a number (no DurationParser accepts a text starting with e, with or without sign); after inf there must be a delimiter; after a number without a unit there must be a delimiter or sign, and no conjunction if delimiters between number and unit are allowed.", "quantifier": "all texts of the documented grammar (any number of durations, digits, exponents within i16), all DurationParsers and CustomDurationParsers with any settings whose delimiters are white space and whose words cannot be confused", "why_tests_cant": "the grammar has infinitely many texts and the value depends on the exact decimal number", "anchors": ["fundu/src/lib.rs: Format specification", "fundu-core/src/parse.rs: Parser::parse, ReprParserMultiple, ReprParserSingle"]}
{"id": "C97", "title": "The order of the durations in a text does not matter", "statement": "If several durations are allowed and negative ones are not, accepted texts which can be written one after the other (for example texts which start with a number) give the same result in every order and with any white space between them: the sum, or the maximum. With negative durations this holds as long as the absolute values of all durations add up to at most the maximum; beyond that the order matters, because every intermediate sum saturates. The functions of fundu-systemd give the same result for every order of texts which start with a number, for every default time unit and every maximum. parse_fuzzy of fundu-gnu gives the same years, months and duration for every order of relative times none of which starts with a time unit, as long as the absolute values fit.", "quantifier": "all configurations with separated word classes, all lists of accepted texts of any length, all permutations of them, all choices of the white space between them; all default time units and maxima of fundu-systemd; all lists of relative times of fundu-gnu", "why_tests_cant": "A test fixes the number of texts, their content, one or two orders and the white space; here all lists, all permutations and all gaps matter.", "anchors": ["fundu-core/src/parse.rs: ReprParserMultiple::parse, Parser::parse_multiple", "fundu-systemd/src/lib.rs: TimeSpanParser::parse_with_max, TimeSpanParser::parse_nanos_with_max", "fundu-gnu/src/lib.rs: RelativeTimeParser::parse_fuzzy"]}
{"id": "C98", "title": "systemd: what is read back", "statement": "Every duration which is not negative and not greater than the maximum, written as seconds with nine decimal places and a unit of seconds (or without a unit if the default unit is seconds), is read back exactly by the functions of fundu-systemd. The Display of a duration is read back exactly (or as the maximum, if that is less) if and only if the duration is not negative and its Display has no microseconds and, for the functions without nanosecond units, no nanoseconds; a negative duration is rejected with NegativeNumber. The Display of zero is only read by the functions with nanosecond units.", "quantifier": "all durations, all default time units, all maxima, both families of functions, all ways of writing the digits and the white space", "why_tests_cant": "Tests read a few texts; the round trip must hold for all 2^64 * 10^9 durations and every maximum and default unit.", "anchors": ["fundu-core/src/time.rs: impl Display for Duration", "fundu-systemd/src/lib.rs: TimeSpanParser::parse_with_max, TimeSpanParser::parse_nanos_with_max, parse, parse_nanos"]}
{"id": "C99", "title": "Sign of the result of several durations", "statement": "If a parser accepts multiple durations, its result reports is_negative() exactly if it is less than zero: whatever the signs of the durations in the text are, however small they are and however they cancel out, the result is never a zero marked as negative. Together with the saturating sum this determines the returned Duration completely, so texts with the same durations give identical results.", "quantifier": "all texts, all configurations of a parser of multiple durations, all time unit, keyword and numeral tables", "why_tests_cant": "the sign of the result depends on the order and the signs of arbitrarily many durations which may cancel out or be truncated to zero", "anchors": ["fundu-core/src/parse.rs: Parser::parse_multiple", "fundu-core/src/time.rs: Duration::saturating_add, Duration::is_zero, Duration::is_negative"]}
{"id": "C100", "title": "Writing out the default time unit", "statement": "A number without a time unit is read in the default time unit. Writing an identifier of the default time unit behind it (immediately, or after delimiters if they are allowed there) does not change the result, neither the duration nor the error for a negative one. In a text with several durations this holds for any number of the numbers in it at once, and for the functions of fundu-systemd with every default unit and maximum. In fundu-gnu a number without a time unit counts seconds: writing one of the words for seconds behind any of the numbers without a time unit, in any case of letters and with or without white space, changes neither years, months nor duration of parse_fuzzy.", "quantifier": "all numbers (any digits, fraction, exponent, sign), all default units, all configurations and unit tables whose identifiers contain no digits, signs or delimiters, all lists of parts and white space between them; all relative times of fundu-gnu made of such numbers and other relative times which do not start with a time unit", "why_tests_cant": "two different paths through the parser (with and without a time unit) must agree for all numbers, including truncation and saturation, and for any number of durations", "anchors": ["fundu-core/src/parse.rs: ReprParserTemplate::parse, ReprParserSingle, ReprParserMultiple", "fundu-core/src/config.rs: Config::default_unit", "fundu-systemd/src/lib.rs: TimeSpanParser::with_default_unit, parse, parse_nanos", "fundu-gnu/src/lib.rs: parse_fuzzy"]}
{"id": "C101", "title": "The example parsers know the documented words, and gnu.rs agrees with fundu-gnu", "statement": "The parser of the example gnu.rs knows exactly the time units and keywords of fundu-gnu (in lower case), each with the same length, and no numerals; the parser of custom.rs knows exactly its documented identifiers with their lengths. Every text the parser of gnu.rs accepts is a relative time without white space around it, which fundu-gnu's parse_fuzzy accepts too. The result is the sum of the parts, counting a month as 2629800 and a year as 31557600 seconds: without months and years both return the same duration, otherwise (as long as the lengths of the parts together stay below the largest duration) the results differ exactly by these lengths.", "quantifier": "all identifiers, all texts", "why_tests_cant": "the example program has no tests, and the set of texts is infinite", "anchors": ["fundu/examples/gnu.rs: GNU_TIME_UNITS, GNU_KEYWORDS, PARSER", "fundu/examples/custom.rs: CUSTOM_TIME_UNITS", "fundu-gnu/src/lib.rs: parse_fuzzy"]}
{"id": "C102", "title": "The byte the parser looks at is the byte at its position", "statement": "The parser reads its input through a reader that keeps a position, a copy of the byte at that position and a buffer with the last word it scanned. After every history of calls on it (advance by one or many, scan to a delimiter with or without the buffer, scan digits one by one or eight at a time, consume delimiters, jump to a saved position or to the end) the input is unchanged, the copy is the byte at the position (nothing beyond the end), and the buffer holds a part of the input together with where it starts and the byte after it. So no decision of the parser is based on a stale byte.", "quantifier": "all inputs (any bytes) and all finite histories of calls, with all arguments and all delimiter functions, that do not end in a panic", "why_tests_cant": "The copy is written by five different methods and read everywhere; a test follows one path through them, the claim is about all interleavings.", "anchors": ["fundu-core/src/parse.rs: Bytes, advance, advance_by, advance_to, buffered_advance_to, finish, reset, parse_digit, parse_digits, parse_digits_strip_zeros, parse_8_digits, try_consume_delimiter"]}
{"id": "C103", "title": "Parsing takes a number of steps linear in the length of the input", "statement": "Whatever the text, the tables of time units, keywords and numerals and the options are, and whether the text is accepted or not, parsing it takes at most K * (length + 1) steps, where K = 122 + 8 * (total length and number of the conjunctions) and a step is: looking at a byte, comparing or looking up a byte of a word, copying a byte of the rest of the input in an error, converting a digit. It holds with every configuration for a single duration (24 * length + 86 steps), and for several durations if each byte which may separate a number and its time unit may also separate durations, as in the default, systemd and gnu configurations: 122 steps for each byte. There is no text with which the backtracking over keywords, time units, numerals and `ago` takes quadratic time, and no exponent, however large, costs more than its digits. The converted numbers have at most 128 bits, so that the conversion of a digit is a constant number of machine operations. The condition on the delimiters is necessary: there is a configuration which does not meet it and for which no constant K is enough.", "quantifier": "all texts, all tables, all configurations (with several durations: those whose inner delimiters are outer delimiters)", "why_tests_cant": "A bound on the running time for all inputs cannot be measured; the worst case is an adversarial text which forces the parser to go back again and again.", "anchors": ["fundu-core/src/parse.rs: Parser::parse, ReprParserTemplate::parse, ReprParserMultiple, ReprParserSingle, Bytes::buffered_advance_to, Bytes::try_consume_delimiter, DurationRepr::parse, Whole::parse, Fract::parse", "fundu-gnu/src/lib.rs: RelativeTimeParser::parse_fuzzy, DurationReprParser", "fundu-systemd/src/lib.rs: CONFIG"]}
{"id": "C104", "title": "What does not occur in the text has no influence on the result", "statement": "The result of parsing a text, value, error with its position and message, or panic, depends on the delimiters only through the bytes of the text, and on the time units, keywords and numerals only through the words which occur in the text as a part: two parsers with the same options which agree on these, and on whether they have time units, keywords and numerals at all, give the same result, for all bytes, UTF-8 or not. Further, for all texts, a parser without keywords or numerals gives what a parser gives whose keywords or numerals do not occur in the text, if each inner delimiter is an outer delimiter or one duration only is parsed. In particular calls of time_unit(s), keyword(s) and numeral(s) of a CustomDurationParser do not change the result for a text in which none of the added identifiers occurs, unless they add the first time unit, and two DurationParsers whose time units differ by units which do not occur in the text give the same result. The same holds for options the text has no use for: without a point in the text disable_fraction has no influence, without an e or E directly after a digit or point disable_exponent has none, without the letters inf in any case disable_infinity has none, without a delimiter directly after a sign allow_sign_delimiter has none, without a delimiter directly after a digit or point allow_time_unit_delimiter has none, without any delimiter in the text allow_ago has none (where negative durations are allowed anyway), and conjunctions which do not occur in the text, in any case, have none.", "quantifier": "all texts (bytes for the first and the last part), all configurations and delimiters, all tables of time units, keywords and numerals, all sequences of calls which add words, all calls of setters of DurationParser and CustomDurationParser", "why_tests_cant": "The words a parser does not see in a text are infinitely many; a test fixes one text and two tables, and cannot show that a lookup is never made with a word from outside of the text.", "anchors": ["fundu-core/src/parse.rs: Parser::parse, Parser::parse_single, Parser::parse_multiple, Bytes::advance_to, Bytes::buffered_advance_to, ReprParserTemplate", "fundu/src/custom/parser.rs: CustomDurationParser::parse, CustomDurationParser::time_units, CustomDurationParser::keywords, CustomDurationParser::numerals", "fundu/src/standard/parser.rs: DurationParser::parse", "fundu/src/custom/time_units.rs: CustomTimeUnits::get"]}
{"id": "C105", "title": "A text with a byte nothing has a use for is never accepted", "statement": "Each byte of a text a parser accepts is a digit, a sign, or something its settings and words have a use for: a point (unless fractions are disabled), e or E (unless exponents are disabled), a letter of infinity in any case (unless infinity is disabled), a letter of ago (if allowed), an inner delimiter (if delimiters behind the sign, before the time unit, or ago are allowed, or there are numerals), an outer delimiter or a byte of a conjunction in any case (if several durations are parsed), or a byte of the identifier of a time unit, keyword or numeral. For DurationParser::new and parse_duration these are 31 characters; for fundu-systemd white space, digits, signs, points and the letters of the documented time units (apart from the word infinity); for fundu-gnu white space, digits, signs, points and the letters of the documented words in any case. So texts with other characters are rejected wherever these stand.", "quantifier": "all texts, all configurations and tables of the core parser (each inner delimiter is an outer delimiter, or there are no keywords and numerals, or one duration is parsed); all texts for the crates", "why_tests_cant": "The texts with a foreign character are infinitely many and the character may stand anywhere, also behind an accepted prefix or inside of white space; tests sample some of them.", "anchors": ["fundu-core/src/parse.rs: Parser::parse, ReprParserTemplate, ReprParserSingle, ReprParserMultiple", "fundu/src/standard/parser.rs: DurationParser::new, DurationParser::parse, parse_duration", "fundu-systemd/src/lib.rs: TimeSpanParser::parse, TimeSpanParser::parse_nanos, CONFIG, TimeUnits", "fundu-gnu/src/lib.rs: RelativeTimeParser::parse_fuzzy"]}
{"id": "C106", "title": "How accepted texts begin and end", "statement": "An accepted text is not empty. It begins with a sign, a digit, a point (unless fractions are disabled), i or I (unless infinity is disabled), the first byte of a time unit (if the number is optional), of a keyword or of a numeral. It ends with a digit, a point (unless fractions are disabled), the last letter of inf or infinity in any case (unless disabled), of ago (if allowed), or the last byte of a time unit or keyword. So the parsers of fundu and fundu-core reject each text with a delimiter or another foreign byte at its start or end, if no identifier begins or ends with it, also if delimiters are allowed inside of and between durations.", "quantifier": "all texts, all configurations and tables of the core parser (each inner delimiter is an outer delimiter, or there are no keywords and numerals, or one duration is parsed)", "why_tests_cant": "It is a claim about all accepted texts of all parsers; tests see some texts of some parsers.", "anchors": ["fundu-core/src/parse.rs: Parser::parse, ReprParserTemplate, ReprParserSingle, ReprParserMultiple, Bytes::try_consume_delimiter, try_consume_connection"]}
{"id": "C107", "title": "The example systemd.rs agrees with fundu-systemd", "statement": "The parser of the example program systemd.rs knows the documented time units of parse_nanos of fundu-systemd, with the same lengths, except the microsecond written with the Greek letter mu (U+03BC), and no others. Each text it accepts is accepted by parse_nanos_with_max with the same duration, or the maximum if the duration is greater. So for durations up to the default maximum parse_nanos returns the same. Conversely each text accepted by parse_nanos_with_max is accepted by the example with the same duration (or one above the maximum), if it has no white space around it, each word in it has a number in front, it is not the word infinity and it contains neither the Greek mu nor vertical tabs nor form feeds. (These conditions are needed: fundu-systemd accepts time units without a number, the Greek mu and vertical tabs.)", "quantifier": "all texts, all non-negative maxima", "why_tests_cant": "Two parsers with different settings, delimiters and tables are compared on all texts.", "anchors": ["fundu/examples/systemd.rs: main", "fundu/src/custom/time_units.rs: SYSTEMD_TIME_UNITS", "fundu-systemd/src/lib.rs: TimeSpanParser::parse_nanos_with_max, parse_nanos, CONFIG, TimeUnitsWithNanos"]}
{"id": "C108", "title": "How numbers are written does not matter", "statement": "If two texts differ only in how their numbers are written (zeros in front of a number or at the end of a fraction, the point moved against the exponent, no digits in front of the point, and anything else which does not change the value of the number), then both are rejected or both are accepted with exactly the same duration, for single durations and for texts with any number of durations. Only immediately behind a word a number must not change from starting with a digit to starting with a point. The same holds for fundu-systemd and, for whole and decimal numbers, fundu-gnu.", "quantifier": "all pairs of texts, all configurations, unit tables, keywords, numerals and conjunctions whose words contain no delimiters, digits, signs or points; all numbers of any length with any exponent the parser accepts", "why_tests_cant": "infinitely many spellings of infinitely many numbers at every place of a text", "anchors": ["fundu-core/src/parse.rs: ReprParserTemplate::parse, parse_whole, parse_number_fraction, parse_exponent, DurationRepr::parse", "fundu-systemd/src/lib.rs: TimeSpanParser::parse_with_max", "fundu-gnu/src/lib.rs: parse_fuzzy"]}
{"id": "C109", "title": "Several durations are single durations, one after the other", "statement": "Whenever a parser of several durations accepts a text, the text is made of pieces with separators between them (nothing, delimiters, or delimiters and a conjunction), such that the parser with the same settings for single durations accepts each piece, and the result is the saturating sum of the results of these pieces from left to right (the sum, at most the maximum, if negative durations are not allowed). For fundu-systemd each piece is accepted on its own by the same function and the result is the sum, at most the given maximum; for fundu-gnu each piece is accepted on its own by parse_fuzzy and years, months and duration are the saturating sums.", "quantifier": "all accepted texts of any length, all configurations, unit tables, keywords, numerals and conjunctions with orderly words, all maxima", "why_tests_cant": "relates two parsers with different code for single and multiple durations on every accepted text", "anchors": ["fundu-core/src/parse.rs: Parser::parse_single, Parser::parse_multiple, ReprParserSingle, ReprParserMultiple", "fundu-systemd/src/lib.rs: TimeSpanParser::parse_with_max", "fundu-gnu/src/lib.rs: RelativeTimeParser::parse_fuzzy"]}
{"id": "C110", "title": "The order of dates", "statement": "Julian days and DateTimes are ordered as their Gregorian dates and times of day are (year, month, day, hour, minute, second, nanosecond): from_gregorian, to_gregorian and from_gregorian_date_time keep the order in both directions. Adding a duration keeps the order, and a longer duration leads to a later DateTime. Adding the same years and days with checked_add_gregorian keeps the order of the days. Adding the same years, months and days changes the order of the days of two DateTimes by at most two days, and not at all for two dates of the same month. (Adding months, or years to dates with different times of day, does not always keep the order: shown by counterexamples.)", "quantifier": "all pairs of valid dates of all years, all pairs of Julian days with a Gregorian date, all DateTimes, all durations, all i64 years and days", "why_tests_cant": "the order must hold for every pair of dates across all month, leap year and century boundaries of an unbounded calendar", "anchors": ["fundu-gnu/src/datetime.rs: JulianDay::from_gregorian, JulianDay::to_gregorian, derive(PartialOrd, Ord) for JulianDay and DateTime, DateTime::from_gregorian_date_time, DateTime::checked_add_duration, DateTime::checked_add_gregorian"]}
{"id": "C111", "title": "Other numbers, smaller numbers", "statement": "If numbers of an accepted text are replaced by numbers with smaller values (in any notation with digits, fraction and exponent the parser allows) and everything else stays the same, then the text is still accepted. If negative durations are not allowed, the result is not longer than before; and the magnitude of a single duration never gets greater. If negative durations are allowed, then the values of the numbers have no influence at all on whether the text is accepted. In fundu-systemd smaller numbers are accepted too and the time span is not longer. In fundu-gnu, where whole numbers are replaced by whole numbers and decimal numbers by decimal numbers, the digits have no influence on whether parse_fuzzy accepts the text, and in a text with neither minus signs nor `ago` smaller numbers give no more years, no more months and no longer durations. (As in C108, the words of the parser must contain no points, digits, signs or delimiters, and a number which follows a word immediately starts with a point either in both texts or in none.)", "quantifier": "all texts and all replacements of their numbers, of any size; all options, time units, keywords and numerals under the conditions; all default units and maxima of fundu-systemd", "why_tests_cant": "It compares the results for pairs of texts of unbounded length with numbers of unbounded length, including those which saturate or vanish.", "anchors": ["fundu-core/src/parse.rs: Parser::parse, ReprParserTemplate::parse, DurationRepr::parse, Whole, Fract", "fundu-core/src/time.rs: Duration::saturating_add", "fundu-systemd/src/lib.rs: TimeSpanParser::parse_with_max", "fundu-gnu/src/lib.rs: RelativeTimeParser::parse_fuzzy"]}
{"id": "C112", "title": "The laws of calculating with durations", "statement": "a + b and b + a are the same value (including whether a zero counts as negative) or both overflow; if a + b and b + c can be calculated, (a + b) + c and a + (b + c) are the same value or both overflow. What was added can be subtracted again and the other way round, giving a duration equal to the first. a - b is a + (-b), b - a is -(a - b), and -(a + b) is (-a) + (-b) (also saturating). Sums and differences keep the order, checked and saturating. Where the checked result exists, the operator and the saturating function return it. The conversions to std, time and chrono keep the order: saturating ones keep <=, exact ones compare as the durations do. The saturating sum is not associative.", "quantifier": "all durations (pairs, triples, quadruples)", "why_tests_cant": "the laws relate the four sign combinations, the order of the magnitudes and the carry of the nanoseconds for every triple of durations, and overflow at every intermediate result", "anchors": ["fundu-core/src/time.rs: Duration::checked_add, checked_sub, saturating_add, saturating_sub, Add, Sub, Neg, TryFrom, SaturatingInto"]}
{"id": "C113", "title": "Equal durations are interchangeable", "statement": "Two durations are equal with == iff they are the same value or both are zero. Equal durations print the same text, and durations which print the same text are equal. All accessors (as_*, subsec_*, is_zero, abs) and all conversions to std, time and chrono (TryFrom and saturating) return the same values for equal durations; sums, differences, comparisons, hashes and dates calculated with equal durations are equal and fail in the same cases. Only is_negative, is_positive and serialized data tell -0 and 0 apart.", "quantifier": "all pairs of equal durations, all operands, all dates", "why_tests_cant": "that no function observes the difference of the two zeros, and that Display is injective up to ==, is a statement about all pairs of durations", "anchors": ["fundu-core/src/time.rs: impl PartialEq for Duration, Display, as_*, subsec_*, TryFrom, SaturatingInto", "fundu-gnu/src/datetime.rs: checked_add_duration, checked_sub_duration"]}
{"id": "C114", "title": "Calculating with dates obeys the laws of a time line", "statement": "Adding two durations to a DateTime one after the other equals adding their sum (when the intermediate date and the sum exist), and the order of the two does not matter; a duration which was added can be subtracted again (and the other way round) giving exactly the same DateTime, and duration_since then is that duration. a.duration_since(b) and b.duration_since(a) are opposite and exist together; duration_since(c) of a is the sum of the two distances over any b; a.duration_since(a) is zero; moving both dates by the same duration keeps the distance. For dates up to the 28th of a month, years and months can be added one after the other or together with the same result (in particular subtracted again); for later days this is false (Jan 31 + 1 month - 1 month = Feb 3).", "quantifier": "all dates and times, all durations, all i64 years/months/days", "why_tests_cant": "the laws range over all dates and durations, including those next to overflow where intermediate results do not exist", "anchors": ["fundu-gnu/src/datetime.rs: DateTime::checked_add_duration, checked_sub_duration, duration_since, checked_add_gregorian"]}
{"id": "C115", "title": "Mistakes behind accepted durations are reported at their place", "statement": "With parse_multiple, let s be an accepted text (with any value, also one which reaches Duration::MAX, like inf) and t a non-empty text which starts neither with a delimiter, nor with a conjunction, a time unit or the word ago. Then parsing s, delimiters and t fails with an error exactly if parsing t alone fails, and the error is the one for t alone with the same kind and reason, its position moved by the number of bytes in front of t (errors without a position are unchanged); s, delimiters and t are accepted exactly if t is. The same holds with a conjunction between them (if time unit delimiters are not allowed). So a value which is already at the maximum does not end the parsing: everything behind it is checked. The same holds for fundu-systemd (t starts with a number) and for parse_fuzzy of fundu-gnu, also with white space around the whole text, which positions do not count.", "quantifier": "all accepted texts, all non-empty runs of delimiters, all following texts and all their errors, all configurations with parse_multiple and orderly words, all default units and maxima in fundu-systemd", "why_tests_cant": "Tests try a few texts with a mistake in the second or third duration. That the value read so far never hides a later mistake and that each error of each text is moved exactly is a statement about all pairs of texts.", "anchors": ["fundu/src/standard/parser.rs: DurationParser::parse_multiple (documentation: parsing stops at the first ParseError, not at Duration::MAX)", "fundu-core/src/parse.rs: Parser::parse_multiple, ReprParserMultiple", "fundu-systemd/src/lib.rs: TimeSpanParser::parse_with_max", "fundu-gnu/src/lib.rs: RelativeTimeParser::parse_fuzzy"]}
{"id": "C116", "title": "The lengths of time units decide the value only", "statement": "Whether a text is accepted, and the error if it is not, depends on the words a parser knows and not on what the words stand for: two parsers with the same options, possibly with different default units, whose time units, keywords and numerals have the same words, possibly with different units, multipliers and numbers, accept the same texts and give the same errors, with one exception, the error for negative durations when they are not allowed. If negative durations are allowed that error never occurs; if they are not, it does not occur for texts without a minus sign, if ago is not allowed and no word has a negative multiplier. So changing the default unit of a DurationParser, or of the parser of fundu-systemd, never changes whether such a text is accepted nor its error. The exception is needed: -0.0000000001 is accepted with the default unit nanosecond (the value is zero) and refused with the default unit second.", "quantifier": "all texts, all configurations, all pairs of default units, all pairs of tables with the same words, all maxima in fundu-systemd", "why_tests_cant": "Tests compare a few default units on a few valid numbers. That no length of a time unit can turn an accepted text into an error or change an error is a statement about all texts and all tables.", "anchors": ["fundu/src/standard/parser.rs: DurationParser::default_unit", "fundu-core/src/parse.rs: Parser::parse, DurationRepr::parse, ReprParserTemplate", "fundu-systemd/src/lib.rs: TimeSpanParser::with_default_unit"]}
{"id": "C117", "title": "number_is_optional matters only for time units without a number", "statement": "A parser gives the same result, the same duration or the same error, with and without number_is_optional, for each text in which no duration is a time unit without a number: for single durations, if what follows the sign is not a time unit (for example if it starts with a digit or a point); for several durations, if no time unit, possibly with a sign in front, stands where a duration starts. In particular, for parsers of several durations like the one of fundu-systemd (time unit delimiters allowed; no keywords, numerals, conjunctions, ago and infinity), the option has no influence on texts in which each word has a digit or a point in front, with or without delimiters in between. The conditions are needed: 's' and '1h minute' are accepted only with the option.", "quantifier": "all texts without bare time units, all configurations, time units, keywords and numerals", "why_tests_cant": "Tests show that some units without numbers are accepted with the option. That the option changes no other result, no value, no error and no error position, is a statement about all texts and all configurations.", "anchors": ["fundu/src/standard/parser.rs: DurationParser::number_is_optional", "fundu-core/src/config.rs: Config::number_is_optional", "fundu-core/src/parse.rs: ReprParserTemplate::parse, ReprParserSingle, ReprParserMultiple", "fundu-systemd/src/lib.rs: CONFIG"]}
{"id": "C118", "title": "The list of conjunctions is a set of words", "statement": "In a parser of several durations with conjunctions, neither the order of the conjunctions nor how often one is in the list has an influence on any result, value or error, as long as no conjunction is the start of another one (letter case aside). A conjunction which stands in the list behind another one it starts with has no influence at all, because the other one is always found first; and no list of conjunctions is the same as an empty one. The condition is needed: with ['and', 'a'] the text '1h AND 2m' is 3720 seconds, with ['a', 'and'] it is rejected.", "quantifier": "all texts, all lists of conjunctions, all configurations, time units, keywords and numerals", "why_tests_cant": "Tests use one order of a few conjunctions. That the order cannot change any value, error or error position, and exactly when it may, is a statement about all lists and all texts.", "anchors": ["fundu/src/standard/parser.rs: DurationParser::parse_multiple", "fundu/src/custom/parser.rs: CustomDurationParser::parse_multiple", "fundu-core/src/parse.rs: Bytes::try_consume_delimiter, ReprParserMultiple::try_consume_connection", "fundu-core/src/config.rs: Config::conjunctions"]}
{"id": "C119", "title": "Parsers with different options or time units can be told apart", "statement": "Two DurationParsers with the default delimiters, no conjunctions and at least one time unit give the same result for every text exactly if they were given the same set of time units and all their options (default unit, allow_negative, allow_multiple, number_is_optional, allow_ago, disable_exponent, disable_fraction, disable_infinity, allow_sign_delimiter, allow_time_unit_delimiter) are equal. So no setter is without effect: a call of a setter which leaves the delimiters and conjunctions alone changes the result of some text exactly if it changes the option. Without any time unit this is not so: number_is_optional then has no effect on any text.", "quantifier": "all configurations with the default delimiters and no conjunctions, all non-empty lists of time units, all texts, all calls of setters", "why_tests_cant": "A test shows that an option has an effect with one set of the other options and time units. Whether it has one with every combination of the other options and every set of time units, and that there is no effect besides, is a statement about all configurations.", "anchors": ["fundu/src/standard/parser.rs: DurationParser::parse, DurationParser::with_time_units, setters", "fundu-core/src/config.rs: Config", "fundu-core/src/parse.rs: Parser::parse", "fundu/src/standard/time_units.rs: StandardTimeUnits::get"]}
{"id": "C120", "title": "Longer units, longer durations", "statement": "If every word of a parser and its default unit are replaced by at least as long ones (coefficient and exponent of the multipliers not smaller, signs aside), no text gets a shorter duration: for a single duration the absolute value does not decrease, and for several durations, if negative ones are not allowed, neither does the result. So a DurationParser with a longer default unit gives a longer or the same duration for every text, and a text without a minus sign which was accepted stays accepted; the same holds for the default unit of fundu-systemd and every maximum. Comparing the values of the multipliers is not enough: with a unit of 10^18 * 10^-18 seconds the text 0.5x is zero, with one of 1 * 10^0 seconds it is half a second.", "quantifier": "all texts, all configurations, all pairs of default units, all pairs of tables of time units, keywords and numerals with the same words, all maxima of fundu-systemd", "why_tests_cant": "Tests compare the results of a few units for a few numbers. That truncation, saturation, ago, numerals and sums never turn the order around is a statement about all numbers, tables and texts.", "anchors": ["fundu-core/src/parse.rs: DurationRepr::parse, DurationRepr::calculate_duration", "fundu-core/src/time.rs: TimeUnit::multiplier, Multiplier", "fundu/src/standard/parser.rs: DurationParser::default_unit", "fundu/src/custom/time_units.rs: CustomTimeUnit", "fundu-systemd/src/lib.rs: TimeSpanParser::set_default_unit"]}
{"id": "C121", "title": "What a parser reads tells what its words mean", "statement": "If a parser reads every text which another parser with the same options reads, with the same result, then it knows every time unit of the other one which can stand behind a number (immediately or, if allowed, behind a delimiter), and one of these units has the same duration in both; in a parser of single durations every keyword is a keyword of the other one too, or a time unit which needs no number, with the same duration. So two CustomDurationParsers which read the same texts with the same results agree on get_time_unit_by_id, up to units of the same length, for every identifier which can be used. For identifiers which cannot be used this is false: a unit called 2x makes no difference to a parser without delimiters.", "quantifier": "all configurations with ASCII delimiters which allow negative durations, all pairs of tables of time units, keywords and numerals (for several durations: without keywords and numerals), all call sequences of CustomDurationParser, all identifiers", "why_tests_cant": "The hypothesis is about all texts and the conclusion about all identifiers of all parsers; no finite set of texts tells two tables apart.", "anchors": ["fundu-core/src/parse.rs: Parser::parse", "fundu/src/custom/parser.rs: CustomDurationParser::parse, CustomDurationParser::get_time_unit_by_id", "fundu/src/custom/time_units.rs: CustomTimeUnits::get"]}
