#!/usr/bin/env python3
"""Writes /verif/properties.jsonl (kept as a script so that the list is easy to extend)."""
import json, os
P = []
def p(id, title, statement, quantifier, why, anchors):
    P.append(dict(id=id, title=title, statement=statement, quantifier=quantifier,
                  why_tests_cant=why, anchors=anchors))
T="fundu-core/src/time.rs"; PA="fundu-core/src/parse.rs"; CF="fundu-core/src/config.rs"
G="fundu-gnu/src/lib.rs"; D="fundu-gnu/src/datetime.rs"; S="fundu-systemd/src/lib.rs"
p("C01","Duration comparison is comparison of signed time",
  "Duration's ==, <, cmp and hash agree with the signed length of time the duration stands for: a == b iff both stand for the same number of nanoseconds (so -0 == 0), cmp is the total order of these numbers, and equal durations feed the same data to a Hasher.",
  "all pairs (triples, for transitivity) of durations", "2^94 x 2^94 pairs; negative zero makes the derived implementations wrong only on rare pairs.",
  [T+": impl PartialEq/Ord/Hash for Duration"])
p("C02","Duration addition and subtraction are exact or report overflow",
  "a.checked_add(b) / a.checked_sub(b) is Some(d) with d standing for exactly a+b / a-b nanoseconds iff that sum lies in [Duration::MIN, Duration::MAX], and None otherwise; saturating_add/sub clamps to MIN/MAX on the correct side; `+`/`-` panic exactly when the checked version is None.",
  "all pairs of durations", "The borrow/carry and the four sign cases interact at boundaries no finite sample covers.",
  [T+": Duration::checked_add, checked_sub, saturating_add, saturating_sub, Add, Sub, Neg"])
p("C03","neg and abs",
  "-(-d) == d, d + (-d) is zero, abs(d) is the non-negative duration of the same magnitude, for every duration; negation never loses range (MIN = -MAX).",
  "all durations", "whole value range incl. MIN/MAX and negative zero", [T+": Duration::abs, impl Neg"])
p("C04","as_* and subsec_* accessors truncate toward zero and never overflow",
  "as_weeks/days/hours/minutes/seconds/millis/micros/nanos return the signed length divided by the unit rounded toward zero, subsec_* return the truncated sub-second part, and no intermediate arithmetic or cast overflows.",
  "all durations", "casts u64->i64 and negations are only wrong near the ends of the range", [T+": as_whole, as_weeks..as_nanos, subsec_*"])
p("C05","extract_* splits a duration without loss",
  "extract_weeks/days/hours/minutes/seconds return n and leave r with old = n*unit + r exactly, |r| < unit, r of the same sign as the original, and never panic; chaining all extractions reassembles the original.",
  "all durations, all chains of extractions", "2^94 values; unwrap() inside", [T+": extract_i64, extract_weeks..extract_seconds"])
p("C06","Display output parses back to the same duration",
  "For every duration d, parsing d.to_string() with a DurationParser with all time units, parse_multiple and allow_negative returns a duration equal to d.",
  "all durations", "round trip over 2^94 values through formatter, tokenizer, number conversion and saturating sum", [T+": impl Display for Duration", PA+": parse_multiple","fundu/src/standard/parser.rs: DurationParser"])
p("C07","Conversion to and from std::time::Duration is lossless or an error",
  "From<std> then TryFrom is the identity; TryFrom fails with NegativeDuration iff the duration is strictly negative and otherwise keeps the exact value; saturating_into gives the exact value or ZERO for negatives and never hits unreachable!().",
  "all durations / all std durations", "whole range", [T+": From<std::time::Duration>, TryFrom<Duration> for std::time::Duration, SaturatingInto"])
p("C08","Conversion to and from time::Duration is lossless or an error",
  "TryFrom succeeds with the exact value iff the whole seconds fit the i64 seconds of time::Duration (both signs, including i64::MIN), else reports Positive/NegativeOverflow matching the sign; From then TryFrom is the identity; saturating_into clamps at the matching end and never hits unreachable!().",
  "all durations / all valid time::Durations", "wrapping_neg and casts at 2^63", [T+": cfg(feature=time) impls"])
p("C09","Conversion to and from chrono::Duration is lossless or an error",
  "TryFrom succeeds with the exact value iff it lies in chrono's [min_value, max_value], else reports Positive/NegativeOverflow matching the sign; From is exact for every chrono duration; From then TryFrom is the identity.",
  "all durations / all chrono durations in range", "floor representation of negative chrono durations vs sign-magnitude; boundaries in ms", [T+": cfg(feature=chrono) impls"])
p("C10","Multiplier multiplication is exact or reports overflow",
  "Multiplier(m1,e1).checked_mul(Multiplier(m2,e2)) is Some of exactly (m1*m2, e1+e2) iff both fit i64/i16, None otherwise; `*` panics exactly on None; the value m*10^e is multiplicative; saturating_neg negates exactly except at i64::MIN.",
  "all pairs of multipliers", "2^80 x 2^80 pairs", [T+": Multiplier::checked_mul, Mul, saturating_neg, is_negative"])
p("C11","The 8-bytes-at-once digit test equals the per-byte test",
  "The SWAR test used while scanning numbers accepts 8 bytes iff each of them is an ASCII digit; hence the scanner consumes exactly the maximal run of ASCII digits, whatever follows (including bytes >= 0x80).",
  "all 2^64 8-byte words, all inputs and positions", "2^64 words; carries between lanes", [PA+": Bytes::parse_8_digits, parse_digits"])
p("C12","The 8-digits-at-once conversion is exact",
  "The three wrapping multiplications convert any 8 ASCII digits to their decimal value.",
  "all 10^8 digit words", "wrap-around argument must hold for all words", [PA+": Parse8Digits::parse_8_digits"])
p("C13","Leading zeros are stripped exactly",
  "The whole part used for conversion is the digit run without its leading zeros (empty if all are zero), independent of how zeros are distributed over 8-byte blocks.",
  "all digit runs of any length", "unbounded length, block boundaries", [PA+": Bytes::parse_digits_strip_zeros"])
p("C14","Whole number conversion is exact or reports overflow",
  "Converting digits (with optional appended digits and appended zeros) gives exactly the decimal value iff it is < 2^64, and None otherwise; never wraps, never panics.",
  "all digit strings of any length, all zero counts", "unbounded length", [PA+": Whole::parse_slice, Whole::parse"])
p("C15","Fraction conversion truncates at 10^-18",
  "Converting fraction digits (with optional prepended digits and z leading zeros) gives exactly floor(0.{z zeros}{prepended}{digits} * 10^18); never overflows or panics.",
  "all digit strings of any length, all z", "unbounded length; block/remainder interplay with the 18-digit cap", [PA+": Fract::parse_slice, Fract::parse"])
p("C16","A number literal denotes its exact decimal value",
  "The duration computed from whole digits W, fraction digits F, exponent e, and unit multiplier c*10^u is sign * min(MAX, floor(floor(W.F * 10^(e+u) * 10^18) * |c| / 10^9)) nanoseconds: no float rounding, correct sign, saturation instead of wrap-around.",
  "all digit strings W,F of any length, all i16 exponents, all multipliers", "unbounded digits, 5 code paths moving digits across the decimal point", [PA+": DurationRepr::parse, calculate_duration"])
p("C17","What you put in is what you get out",
  "If no non-zero digit lies beyond the 18th decimal place after shifting, or if the unit coefficient is +-1, the result is floor(exact value in ns); for every other literal it is at most |c|/10^9 + 1 ns below the exact value (never above).",
  "all literals and multipliers", "unbounded digits", [PA+": DurationRepr::parse","fundu/src/lib.rs: crate docs"])
p("C18","Equal values parse equal; larger values parse to larger durations",
  "Two literals with the same sign and the same rational value (leading zeros, trailing fraction zeros, moving the decimal point against the exponent) give equal durations, and for non-negative literals with the same unit a larger value never gives a smaller duration.",
  "all pairs of literals", "pairs of unbounded literals", [PA+": DurationRepr::parse"])
p("C19","Numbers closer to zero than 10^-18 are zero and not negative",
  "A literal whose shifted absolute value is below 10^-18 gives Duration::ZERO with positive sign, so it is accepted even when negative durations are not allowed.",
  "all literals", "unbounded digits/exponents", [PA+": DurationRepr::parse","fundu-core/src/error.rs: ParseError::NegativeNumber"])
p("C20","Exponent range",
  "An exponent is accepted iff it denotes an integer in [-32768, 32767] (any number of leading zeros); otherwise PositiveExponentOverflow / NegativeExponentOverflow according to its sign.",
  "all exponent digit strings", "unbounded length", [PA+": parse_exponent"])
p("C21","Infinity",
  "Unless disabled, `inf`/`infinity` in any letter case with optional sign parse to Duration::MAX / MIN (MIN only if negatives are allowed) and any other continuation is an error; if disabled, infinity is never produced from these words.",
  "all configs, all case variants, all continuations", "all inputs", [PA+": parse_infinity_remainder"])
p("C22","Negative durations only when allowed",
  "If allow_negative is off, every Ok result of parse is non-negative, and in multiple mode not even an intermediate duration is negative.",
  "all inputs, configs with allow_negative off, all unit/keyword/numeral tables", "all inputs", [PA+": Parser::parse_single, parse_multiple"])
p("C23","Parsing never panics and never breaks the safety contracts of its unsafe code",
  "For every UTF-8 input and every config with ASCII-only delimiters and unit tables whose multipliers do not overflow, parse returns Ok or Err: no slice index, subtraction, unwrap, unreachable!, arithmetic overflow or debug assertion fails, and every from_utf8_unchecked receives valid UTF-8 and every unaligned 8 byte read is in bounds.",
  "all inputs, all such configs and tables", "all inputs", [PA+": unsafe blocks, unreachable!, expect, unwrap"])
p("C24","Parsing multiple durations terminates",
  "Every iteration of the multiple-durations loop that does not fail consumes at least one byte, so parse returns for every input after at most len(input) iterations.",
  "all inputs, configs, tables", "non-termination cannot be observed by finite testing", [PA+": parse_multiple"])
p("C25","Error positions lie within the input",
  "Every position reported in ParseError::Syntax / ParseError::TimeUnit is at most the byte length of the input.",
  "all inputs, configs, tables", "all inputs", [PA+": all ParseError::Syntax / TimeUnit constructions"])
p("C26","Empty input",
  "parse(\"\") is Err(Empty) for every parser, and Err(Empty) is returned for no other input (single and multiple mode).",
  "all configs, tables, inputs", "all inputs", [PA+": ReprParserTemplate::parse"])
p("C27","The single-duration parser accepts exactly the documented grammar",
  "Without keywords and numerals (standard parser, parse_multiple off) parse(s) = Ok(d) iff s is an optional sign, (if allowed: delimiters), a number in the documented format (fraction/exponent only if enabled) or infinity or (if number_is_optional) nothing, then optionally delimiters (if allowed) and a configured time unit, optionally `ago`; and d is the value denoted by these parts.",
  "all inputs, all configs with ASCII delimiters, all unit tables", "language equality over unbounded strings", [PA+": ReprParserSingle","fundu/src/lib.rs: Format specification"])
p("C28","Disabled syntax is rejected",
  "With disable_fraction no accepted number contains a decimal point; with disable_exponent no accepted number contains an exponent; with no time units configured no accepted input contains anything after the number; without allow_time_unit_delimiter / allow_sign_delimiter no delimiter is accepted there.",
  "all inputs", "all inputs", [PA+": parse_number_fraction, parse_number_exponent, parse_number_time_unit"])
p("C29","Multiple durations are summed",
  "In multiple mode, a sequence of durations separated by delimiters (or by a digit/sign starting the next duration, or conjunctions) parses to the saturating left-to-right sum of the single values; if no partial sum leaves the range it is the exact sum; with negatives disallowed it is min(MAX, exact sum) and independent of the order.",
  "all sequences of any length", "unbounded sequences; saturation is order dependent with mixed signs", [PA+": parse_multiple, try_consume_connection"])
p("C30","ago negates",
  "With allow_ago, `<number><unit> ago` (any case) denotes the negation of `<number><unit>`; a leading minus and ago cancel.",
  "all literals, units, configs with allow_ago", "all literals", [PA+": parse_time_unit"])
p("C31","Time units without a number and keywords denote one unit",
  "With number_is_optional, a bare (signed) time unit denotes the same duration as the literal 1 with this unit; a keyword denotes the duration of its multiplier.",
  "all units/multipliers", "all multipliers (exponent cases)", [PA+": parse_duration_with_fixed_number"])
p("C32","Numerals denote their multiplier",
  "`<numeral><delimiters><unit>` denotes numeral*unit with the correct sign; a numeral without a unit is an error.",
  "all numerals, units, configs", "all multipliers", [PA+": parse_numeral, parse_duration_with_fixed_number"])
p("C33","Scan buffering is transparent",
  "Reusing a buffered scan never changes what is parsed: the word found is the one an unbuffered scan from the same position finds (whenever inner and outer delimiter agree).",
  "all inputs, all delimiter functions", "needs particular combinations of keyword table, delimiters and input", [PA+": Bytes::buffered_advance_to"])
p("C34","Standard time unit lookup",
  "A DurationParser configured with a list of time units recognises exactly the default identifiers of the units in the list (order and repetitions do not matter), case sensitively, and get_current_time_units returns each configured unit once in ascending order.",
  "all lists of units, all identifier strings", "unbounded lists/strings", ["fundu/src/standard/time_units.rs: TimeUnits"])
p("C35","Builder and setters agree",
  "DurationParserBuilder / CustomDurationParserBuilder / ConfigBuilder sequences build the parser that results from applying the corresponding setters in the same order, each setter changes only its own option (allow_ago also switches allow_negative on).",
  "all call sequences", "unbounded sequences", ["fundu/src/standard/builder.rs","fundu/src/custom/builder.rs",CF])
p("C36","Custom time unit lookup is complete",
  "After registering any sequence of custom units, an identifier resolves iff it is non-empty and was registered, and it resolves to one of the (unit, multiplier) pairs registered for it - the pair whose first registration with a usable identifier came first; the length pre-filters never hide an identifier; empty identifiers are ignored.",
  "all registration sequences, all identifiers", "unbounded sequences", ["fundu/src/custom/time_units.rs: CustomTimeUnits"])
p("C37","Custom numerals lookup",
  "A numeral word resolves to the multiplier of the first registered numeral having this identifier, and to nothing if there is none.",
  "all registration sequences, all words", "unbounded sequences", ["fundu/src/custom/mod.rs: Numerals"])
p("C38","systemd: bounded, non-negative results",
  "TimeSpanParser::parse_with_max / parse_nanos_with_max return durations in [0, max]; `infinity` is exactly max; values above max give max; the default maxima are u64::MAX micro/nano seconds; they panic iff max is negative.",
  "all inputs, all max", "all inputs", [S+": parse_with_max, parse_nanos_with_max"])
p("C39","systemd/gnu: surrounding whitespace is irrelevant",
  "Adding or removing POSIX whitespace before and after the source never changes the result (trim removes exactly the maximal whitespace prefix and suffix and keeps UTF-8 validity).",
  "all inputs", "all inputs", [S+": trim_whitespace","fundu-gnu/src/util.rs: trim_whitespace"])
p("C40","systemd: nanos variant extends the micros variant",
  "Every input accepted by the parser without nano seconds is accepted with nano seconds with the same value (same max, same default unit), and parse(default None) equals parse(default Second).",
  "all inputs", "all inputs", [S+": TimeUnits, TimeUnitsWithNanos, parse, parse_nanos"])
p("C41","gnu: identifiers are matched case-insensitively and exactly",
  "The packed u64 comparison resolves a word iff its ASCII-lowercase form is one of the documented time units / keywords / numerals, for every byte string (no collisions with non letters or multi-byte characters).",
  "all byte strings", "2^128 words; `| 0x20` maps non letters onto letters or digits", [G+": TimeUnits::get, TimeKeywords::get, Numerals::get","fundu-gnu/src/util.rs: to_lowercase_u64"])
p("C42","gnu: without fuzzy units the date is irrelevant",
  "If parse_fuzzy(s) reports 0 years and 0 months then parse_with_date(s, d) is the parsed duration for every date d.",
  "all inputs, all dates", "all inputs/dates", [G+": parse_with_date"])
p("C43","gnu: relative dates are calendar correct",
  "If parse_with_date(s, Some(d)) = Ok(x) and s has fuzzy units then d + x is the date obtained from d by adding the exact part and then the years and months in the proleptic Gregorian calendar; otherwise Err(Overflow) - never a wrong duration.",
  "all inputs, all dates", "dates spanning the i64 range", [G+": parse_with_date", D])
p("C44","Julian day of a Gregorian date",
  "from_gregorian counts days of the proleptic Gregorian calendar: it is 2440588 for 1970-01-01 and increases by exactly one from each valid date to the next (leap years: divisible by 4, not by 100 unless by 400), for all years; None exactly on i64 overflow.",
  "all valid dates of all years", "infinite calendar", [D+": JulianDay::try_from_gregorian"])
p("C45","Gregorian date of a Julian day",
  "to_gregorian inverts from_gregorian for every valid date, its result is always a valid date, and from_gregorian(to_gregorian(jd)) = jd.",
  "all Julian days in range", "about 1.8e17 days", [D+": JulianDay::to_gregorian"])
p("C46","Julian day conversion does not panic",
  "JulianDay::to_gregorian returns None instead of overflowing for every i64.",
  "all i64", "2^64 values, intermediate products", [D+": JulianDay::to_gregorian"])
p("C47","DateTime arithmetic is exact",
  "checked_add_duration/checked_sub_duration move a DateTime by exactly the duration and return None iff the day number leaves i64; duration_since is the exact signed difference, None iff it exceeds Duration's range; a.checked_add_duration(b.duration_since(a)) = b.",
  "all DateTimes and durations", "carry over midnight in both directions, range ends", [D+": DateTime::checked_add_duration, checked_sub_duration, duration_since"])
p("C48","DateTime invariant",
  "Every DateTime obtainable through the public API has a time of day below 24h, so hour/minute/second/nanos accessors are in range and no unwrap in the arithmetic fails.",
  "all sequences of API operations", "unbounded histories", [D+": DateTime"])
p("C49","Calendar arithmetic",
  "checked_add_gregorian(y, m, d) gives the date whose month index is 12*year+month shifted by 12*y+m, with day overflow carried into the following month, plus d days, same time of day; (0,0,0) is the identity, 12 months equal 1 year.",
  "all DateTimes and offsets without overflow", "i64 offsets, negative remainders", [D+": DateTime::checked_add_gregorian"])
p("C50","Civil time round trip",
  "from_gregorian_date_time followed by to_gregorian_date_time returns the same fields for every valid date and time.",
  "all valid date-times", "infinite calendar", [D+": from_gregorian_date_time, to_gregorian_date_time, as_hmsn"])
p("C51","floor_div is floor division",
  "floor_div(a,b) is the floor of a/b for all b != 0 (except the single overflowing pair i64::MIN/-1).",
  "all pairs", "2^128 pairs", ["fundu-gnu/src/util.rs: floor_div"])
p("C52","Integer logarithms are exact",
  "floor_log10 / floor_log2 return floor(log10 n) / floor(log2 n) for every non-zero u64 without out-of-bounds table access, and panic for 0.",
  "all u64", "2^64 values", ["fundu-core/src/util.rs: FloorLog10, FloorLog2"])
if __name__ == "__main__":
    with open(os.path.join(os.path.dirname(__file__),"..","properties.jsonl"),"w") as f:
        for x in P: f.write(json.dumps(x, ensure_ascii=False)+"\n")
    print(len(P))
