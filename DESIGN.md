# A formal model of fundu in Lean 4

This document says what of `/repo` (fundu-rs/fundu: crates `fundu-core`, `fundu`, `fundu-systemd`,
`fundu-gnu`) is modelled, how each property of `properties.jsonl` is stated and proved, what is
trusted, and where the code turned out to violate a natural property (findings F1-F28).

## Layout

    lean/Verif/Model/   the model, function by function, every definition cites file:lines
    lean/Verif/Spec/    small specifications written without looking at the model (signed nanoseconds,
                        decimal value of digits, proleptic Gregorian calendar, grammar of the source)
    lean/Verif/Proofs/  helper lemmas
    lean/Verif/Conformance/  generated: the project's own test cases evaluated in the model (tests, not proofs)
    lean/Verif/Props/   the property theorems, named Cnn_..., each with an example that the
                        hypotheses are satisfiable (or with a concrete run of the model)
    seeded/LOG.jsonl    wrong programs the theorems were tried against
    AXIOMS.txt          the axioms of every theorem in MANIFEST.json (tools/axioms.py)
    tools/              cite.py (resolves line numbers), mkmanifest.py, axioms.py

## Trusted base

* **Lean's kernel** (4.33.0), which checks every proof, including those found by `decide +kernel`, `omega`,
  `simp`, `norm_num`.
* **Axioms**: only `propext`, `Classical.choice` and `Quot.sound`, the three standard ones. AXIOMS.txt
  lists them per theorem: a few theorems need none, some only `propext`. There is no axiom of our own and no
  compiled code (`native_decide`, `bv_decide`) in any proof.
* **The model is a faithful reading of the Rust code.** This is the part no proof can give. Every
  definition cites the lines it models, and the modelling decisions are below.
* **External code** is modelled by its documented behaviour: `std::time::Duration` (a pair of `u64` seconds and nanoseconds
  below 10^9 with checked arithmetic), `time::Duration` and `chrono::Duration` (their documented
  ranges and constructors), `time`/`chrono` date-times (their civil fields), `str`, slices, `u64::from_le`,
  `i64::checked_*`, `Ord::min`, `Option`/`Result` combinators, `f.write_str`. The code which `derive(Serialize, Deserialize)` generates
  and serde's implementation for `std::time::Duration` are modelled over serde's data model (`Model/Serde.lean`), without formats like JSON.

## Modelling decisions

* **Machine integers** (`u64`, `i64`, `i16`, `u32`, `u8`) are `Nat`/`Int` with explicit range checks.
  `checked_*` is a function to `Option` which compares with the bounds of the type. Plain `+ - *` and
  `as` casts that could go wrong are modelled as operations that *panic* when the result leaves the
  type (the debug build semantics). Well-formedness predicates (`Duration.WF`: `secs < 2^64`,
  `nanos < 10^9`) are exactly the invariants the Rust types enforce; every operation is proved to
  preserve them.
* **Failure**: model functions that can fail return `Except Fail α` where
  `Fail = err ParseError | panic PanicKind`. A panic is an explicit value: failed slice index,
  arithmetic overflow, `unwrap`/`expect`/`unreachable!`, `debug_assert!`, and violated contracts of the
  `unsafe` blocks (`from_utf8_unchecked` on invalid UTF-8, an 8 byte read beyond the slice). So a theorem
  "never `panic`" covers both panics and this undefined behaviour.
* **Mutation**: `&mut self` methods return the new state. Loops are structural or fuelled recursion; for
  fuelled recursion it is proved that the fuel suffices (running out of fuel is a panic, too).
* **Bytes**: `Bytes { current_pos, current_byte, input, buffer }` is modelled with the same fields except
  `current_byte`, which every mutator keeps equal to `input.get(current_pos)`; the model computes it. That this is right is C102:
  `Model/RawBytes.lean` stores the byte as the code does, and every method is proved to do the same in both models.
  The parser is modelled twice with respect to `buffer`: with the buffer (as in the code) and without;
  C33 proves that both agree.
* **Traits** `TimeUnitsLike`/`NumbersLike` are records of functions, `Delimiter` is `UInt8 → Bool`.
  The two `ReprParserTemplate` instances are a `Mode` parameter.
* **Error texts**: reasons are a structured inductive type (kind plus byte payload); `Model/Message.lean` renders
  them. Positions are kept.

## What is modelled

| File | Modelled | Not modelled |
|---|---|---|
| fundu-core/src/time.rs | `TimeUnit`, `Multiplier`, `Duration` with all methods, operators (also those `core` derives from `partial_cmp` and `cmp`: `<`, `max`, `clamp`, Model/Operators.lean), `Display`, `Hash`, conversions, `serde` derives (Model/Serde.lean) | `Debug` |
| fundu-core/src/parse.rs | all of `Parser`, `DurationRepr`, `Whole`, `Fract`, `Bytes`, the template parser and its two implementations, texts of error messages (Model/Message.lean) | - |
| fundu-core/src/config.rs | `Config`, `ConfigBuilder` | - |
| fundu-core/src/util.rs | `floor_log2`, `floor_log10`, `POW10`, `to_lowercase` | - |
| fundu-core/src/error.rs | the error types, `Display`, `From`, `serde` derives | `Error` (marker) |
| fundu/src/standard | `TimeUnits`, `DurationParser`, `DurationParserBuilder`, `parse_duration`, `Default` (Model/Defaults.lean) | - |
| fundu/src/custom | `CustomTimeUnit(s)`, `TimeKeyword`, `Numeral(s)`, parser, builder, tables | `Vec` capacities, `lookup` (dead code) |
| fundu-systemd/src/lib.rs | everything | - |
| fundu-gnu/src/lib.rs, util.rs | everything but the clock | `now`: the value of the system clock is a parameter |
| fundu-gnu/src/datetime.rs | `JulianDay`, `DateTime`, conversions from `time`, `chrono`, `SystemTime`, `serde` derives | - |
| fundu/examples, fundu-gnu/examples | `systemd.rs`, `gnu.rs`, `custom.rs`, `convert.rs`, `simple.rs`, `clap_builder.rs`, `clap_derive.rs`, `chrono.rs` as functions from the input to what is printed (Model/Examples.lean, Model/ExamplesClap.lean) | the command line (`clap`), the labels of the printed lines, `{:?}` |
| fuzz targets | the regular expressions of `parse_single.rs` and of gnu `parsing.rs` as specifications (C79, C80, C84) | their generators |

Not modelled at all: performance, allocation, benches, `no_std`-ness.

## Validation of the model against the project's tests

The model is written by hand, so its faithfulness is part of the trusted base.  To reduce that trust,
`tools/conformance.py` (templates in `tools/conformance_tests.py`) reads the test cases out of
`/repo` (`rstest` cases, templates and plain tests; it does not run them) and writes
`lean/Verif/Conformance/*.lean`: 1463 cases from 14 files, each evaluated in the model by Lean's
kernel (`decide +kernel`) and compared with the result which the project expects, including
error variants, positions and messages.  These files contain only `example`s.  They are tests of
the model, no claim of MANIFEST.json rests on them, and nothing in `Props/` imports them.

All cases agree, with one exception which is a finding about the code: the three tests
`*_with_invalid_delimiter` in `fundu/tests/parser_test.rs` make the library call `from_utf8_unchecked` on
bytes that are not UTF-8 (F10).  The model reports the broken contract there, and the generated
example says so.

Likewise `tools/doctests.py` translates the examples in the documentation (doc comments of all crates and README.md) statement by
statement (`let`, setters, assertions) into `lean/Verif/Conformance/Docs*.lean`: 615 assertions in 222 examples, all of which hold in
the model.  Three examples are left out which only exercise code written in the example itself.

Not compared: eight cases with inputs of about 32 000 bytes (too long for kernel evaluation; C27
covers them), serde, `Debug`-like comparisons of private fields in builder tests, the clock, and the
brute force loop over dates (C44, C45 prove it for all dates).

## Plan per property

| Property | Statement against | Proof |
|---|---|---|
| C01-C05 `Duration` | signed number of nanoseconds (`Spec.nanos : Int`) | integer arithmetic |
| C06 `Display` round trip | the complete parser, run on the rendered text | induction over the components via the grammar (C27) |
| C07-C09 conversions | nanoseconds and the documented ranges of the other types | integer arithmetic |
| C10 `Multiplier` | rational value `m * 10^e` | integer/rational arithmetic |
| C11-C13 scanning of digits | per byte predicates | words as sums of bytes, induction over 8 byte blocks |
| C14-C20 number literals | decimal value of digit lists, rational value of literals | the shifts of the decimal point as list operations, floor arithmetic |
| C21-C32 the parser | `Spec/Grammar.lean`: relations between texts and their parts, without cursors | cursor functions = list functions, list functions = grammar, both directions |
| C33 buffering | the parser without buffer | simulation |
| C34-C37 tables and builders | lists of calls and registrations | induction over the calls |
| C38-C40, C58 systemd | nanoseconds, list of documented words | corollaries of the core theorems |
| C41, C62 gnu words | ASCII case folding | packed words as little endian numbers |
| C42, C43, C59-C61 gnu | `Spec/Gnu.lean`, `Spec/GnuDate.lean`, `Spec/GnuSentence.lean` | grammar plus calendar theorems |
| C44-C50, C53, C54 dates | `Spec/Calendar.lean`: leap rule, lengths of months, next day | integer arithmetic over 400 year cycles |
| C51, C52 util | floor, logarithms | integer arithmetic |
| C55-C57 standard and custom parser | documented table of units | corollaries |
| C63 options | `Spec/Options.lean`: order on settings and tables | monotonicity of the grammar, rule by rule; with C99 the results are equal including the mark of the sign (`Props/ExactResults`) |
| C66 errors tell the truth | every error path of the first stage (core, systemd, gnu) | `Spec/Errors.lean`: a claim per reason; one pass over the parser: every failure satisfies its claim |
| C67 messages | `Model/Message.lean`: the format strings and `Display` | the last run of digits of a text is unique; messages of claims are text |
| C68 concatenation | `Spec/Concat.lean`: which texts can follow others | induction over the durations of the first text, with the text after it as a parameter; the boundary of the last duration is not moved by what follows |
| C69 ready-made lists | the constants of `custom/time_units.rs` as lists | the tables are extensionally equal (C34, C36), so parsing is equal; the finite lists are compared by `decide +kernel` |
| C70 custom unit limits | `CustomTimeUnit.new`, `eq`, `hashData` | per base unit linear arithmetic |
| C71 the error of each text | the parser, with its errors | `Spec/Mistakes.lean`: relations between a text, its first mistake and the remaining text there; each mistake is shown to be reported, and each text is shown to be in the grammar or to have a mistake |
| C72 constructors of durations | `positive`, `negative`, `std::time::Duration::new` | arithmetic of the carry; compared with `nanos`/`maxNanos` |
| C73 what a custom parser knows | histories of calls on the custom parser, `is_empty`, `get_time_unit_by_id` | the tables after a history (C35) and the lookup (C36) |
| C74 Julian day | `as_julian_day` | the calendar theorems C44, C45 and `instant` |
| C75 gnu mistakes | `parse_fuzzy`, `parse_with_date` | `Spec/GnuMistakes`: the mistakes of C71 which remain without white space at the end, and rejected fractions; induction on the parts |
| C76 written and read back | `parse` with any tables, `parse_duration` | `Written d s` in Props/Exact: sign, digits, point, nine digits; through C27 and the value of the number |
| C77 leading signs | `parse` with any tables | through C27: the grammar with and without the sign have the same rest; `value_opposite` |
| C78 sentences | `parse` of several durations, `DurationParser`, `CustomDurationParser` with keywords and numerals (`Spec/Vocabulary`, `Props/Phrases`) | `Spec/Sentences`: phrases built without longest-run conditions; `StyleOk` relates a style to a configuration; induction on the phrases to the grammar of C27 |
| C79 regular expression | `parse`, `DurationParser`, `CustomDurationParser` | `Spec/Regex`: regular expressions with their meaning, the expression of the fuzz target; both directions through the grammar of C27 and the mistakes of C71; the panic case is excluded by C23/C56/C57 |
| C80 f64 | `DurationParser::without_time_units` | `Spec/Float`: the grammar in the documentation of the standard library with exact values; through C27, C20, C71 |
| C81 gaps | two runs of a parser | `Spec/Respaced`: relation between texts; induction over the grammar of C27 and C60 |
| C82 texts one after the other | `parse_fuzzy` | grammar of C60: what may follow a part; exact sums without saturation |
| C83 serde | derived implementations over serde's data model | inversion of each function; any data for `Duration` |
| C84 gnu regex | regular expressions of the fuzz target (`Spec/GnuRegex.lean`) | their language as an inductive relation; induction over its parts against C60's and C75's specification, both directions |
| C85 example programs | `main` of each example, from the input to the printed values | the printed text is a sum of decreasing units (induction over the steps), read back through C78 and the systemd theorems |
| C86 more words | the tables of `CustomDurationParser` after further calls, the grammar of C27 | the derivation of the text is carried over word by word (`Proofs/MoreWords`), then C63 for units and options; a counterexample shows that the condition is needed; with C99 the results are equal including the mark of the sign (`Props/ExactResults`) |
| C87 order of words | the tables of `CustomDurationParser` and `DurationParser` | both tables give the same answer to every lookup (C36, C37, C34), so that the parser is the same function |
| C88 case of letters | the grammar of C27, the tables of C36 and C37 | each part of the grammar is carried over to the recased text (`Proofs/Case`), then C27 for both texts |
| C89 usable words | the grammar of C27; `Spec/Usable` defines usable words from the configuration alone | derivations contain only usable words (`same_*` in Proofs/Usable), and for every usable unit or keyword a derivation is constructed |
| C90 opposite texts | the grammar of C27; `Spec/Negated` defines the opposite text along the grammar | what follows a duration can be replaced by a text with a sign (`multi_swap`), the saturating sum is odd, then C27 for both texts |
| C91 The opposite of a relative time | Model/Gnu | Spec/GnuNegated (`GnuOpposite`); what follows a part can be replaced by a text with a sign in front; the parts are negated one by one; C60 |
| C92 systemd: exactly the documented time spans, and the error of each other text | `Model/Systemd`, `Spec/SystemdSpans` (a grammar of its own for systemd with values and mistakes, without configuration) | the grammar and the mistakes of `Spec/Grammar` and `Spec/Mistakes` specialised to the systemd configuration (C38, C71), values through C17 |
| C93 when parsing panics | as C23, C27; `Spec/OutOfRange` (items whose products don't fit) | runs of the parser on such texts, and the three cases of C71's proof; ago keeps products in range |
| C94 gnu: every relative time can be written and read back | `Model/Gnu` | the text is a sentence of C61; the values of its phrases are in range, so nothing saturates |
| C95 gnu: how long months and years are | `Model/Gnu`, `Model/DateTime`; `Spec/Months` (lengths of successive months) | C43, C49 and the day numbers of the first days of months; induction over months and years |
| C96 The documented format specification | `Model/Parse`; `Spec/Documented` (transcription of the EBNF) | induction over the documented texts into the grammar of C27; the value by C17 for all exponents |
| C97 The order of the durations in a text does not matter | `parse` in multiple mode, `parseMax`, `parseFuzzy` | `Joined` (Spec/Permuted) builds the text from the list; induction over it with C68_durations, C68_systemd and C82_parts gives the durations of the whole text, whose sum is invariant under permutations; C29 and C82_exact turn it into the result. `C97_order_matters` shows that the range condition is needed. |
| C98 systemd: what is read back | `Duration.display`, `parseMax` | `displayParts_list` describes the display as the nonzero entries of a list of ten parts; C58_spans gives the value, and the first unknown word or minus sign is a mistake in the sense of Spec/SystemdSpans, so that C92_error gives the error. Seconds with nine decimal places: C92_value. |
| C99 sign of the result of several durations | `parseMultipleLoop`, `accumulate`, `saturatingAdd` | induction over the loop with the invariant that a duration marked as negative is less than zero; `C99_exact` then characterises the returned `Duration` itself instead of its length. `C99_negative_zero`: it is different for single durations and for parse_fuzzy (F3). |
| C100 writing out the default time unit | `parse`, `parseMax` | Spec/DefaultUnit says what writing out means. The number text can be extended by an identifier (`number_extend`); both readings have the same value because the multiplier of the table is 1, and C27/C64/C99 lift this to results and errors; C68_durations to lists of parts, parseMax_eq to fundu-systemd.; for fundu-gnu (`Spec/GnuDefaultUnit.lean`) both texts are the same parts of a relative time, joined with C82 |
| C101 example parsers | the parsers of Model/Examples against the tables and the grammar of Spec/Gnu, `averageNanos` and the table of custom.rs in Spec/GnuExample | `C101_tables`, `C101_custom_table` (C36 and evaluation over the tables), `C101_parts` (the inclusion of parsers behind C86 applied to the example and fundu-gnu, item by item), `C101_exact`, `C101_agree` |
| C102 The byte the parser looks at is the byte at its position | `Model/RawBytes.lean`: `Bytes` with the stored `current_byte`, method by method; `Model/Bytes.lean`: the same without it | invariant over histories of calls; each method of the one model is the method of the other (C102_refines) |
| C103 linear time | `Model/Cost.lean`: the functions of `Model/Bytes.lean`, `Model/Parse.lean` and `Model/Number.lean` (the conversion of digits) in a monad which counts steps | erasure: the results are those of the model (`C103_same`, `C103_gnu_same`); a cost specification for each function (`Run`, `Reads`, `Looks`, `Ends`, `Eats`), amortised: the steps for a word which is no time unit after a number are paid by the next duration, which ends behind that word; each digit which is converted was read before (`Digs`) and at most 18 digits of the fraction are converted |
| C104 locality | the parsers of `Model/Parse.lean` (all of them), `Model/Custom.lean`, `Model/Standard.lean`; `Spec/Local.lean`: a word occurs in a text, same answers, same options | simulation between two environments over a cursor invariant (the input is unchanged, the buffered words are parts of the text; `Proofs/Local.lean`, `Proofs/LocalParse.lean`): each lookup is made with a part of the text and each delimiter is asked about a byte of the text. A missing table is compared without the look-ahead buffer (C33), and the panics which a further scan could add are excluded by C93 |
| C105 alphabet | the parsers of `Model/Parse.lean`, `Model/Standard.lean`, `Model/Systemd.lean`, `Model/Gnu.lean`; `Spec/Alphabet.lean`: the bytes the settings and words have a use for | C27, C38 and C60 give a derivation in the grammar for each accepted text; induction over the derivation |
| C106 ends of texts | the parsers of `Model/Parse.lean`; `Spec/Ends.lean`: the bytes a text can begin or end with | C27 gives a derivation in the grammar; induction over the derivation |
| C107 example systemd.rs | `Model/Examples.lean`, `Model/Systemd.lean` | an accepted text has no vertical tab or form feed (C105) and no white space at its ends (C106), so the delimiters can be exchanged (C104); more time units and optional numbers keep the result (C86); converse: in a text whose words have numbers in front (Spec/Numbered) no item is a bare time unit, by induction over the grammar, then C104 |
| C108 renumbered | `Renumbered`: texts with numbers of the same value | the grammar of the one text is followed in the other (simulation); equal values give equal durations (C16, C99_exact) |
| C109 pieces | `Pieces`, `GnuPieces`: a text cut into single durations and separators | each duration of the grammar of several durations, cut off where it ends, satisfies the grammar of single durations (a number, unit, `ago`, keyword or numeral depends on what follows only by its first byte); sums by C99_exact, C38_value, C60 |
| C110 order of dates | `JulianDay`, `DateTime`, `Spec/CalendarOrder.lean`: the lexicographic order of dates and of times | the day numbers of C44/C45 and the instants of C47/C54 are strictly monotone in the lexicographic order (sums of the lengths of months and years are monotone); for years, only the 29th of February can be missing in another year |
| C111 other numbers | two texts related by `Spec.Renumbered`/`GnuRenumbered` with any relation between the values of corresponding numbers | the grammar transports along the relation (Proofs/Renumbered, GnuRenumbered), truncation, clamping and saturating sums are monotone |
| C112 laws of calculation | the arithmetic of `Duration` and the conversions | from the exact values (C02) and the sign of sums (C02_sign): a duration is determined by its length and its mark |
| C113 equal durations | all functions of `Duration` and the addition of durations to dates | equal durations are identical or the two zeros; the zeros are evaluated; injectivity of Display from C06 |
| C114 laws of dates | `DateTime` arithmetic | from the exact values of C47 and C49 on the time line and the injectivity of day numbers |
| C115 mistakes behind accepted durations | `parse_multiple`, fundu-systemd, fundu-gnu | The relation FirstMistake (Spec/Mistakes) of C71 is closed under putting accepted durations in front (constructor later), with the junction lemmas of C68; the remaining text of a mistake is a suffix of the text, so the position is moved by the length of what is in front. The specification of the moved error is movedBy (Spec/LaterMistakes). The converse comes from the three kinds of results (duration, error, multiplier out of range), which all carry over. For fundu-gnu the same with GnuMistake (C75) and the junctions of C82. |
| C116 lengths decide the value only | `parse`, default units, tables | The grammar and the mistakes of C71 are carried over constructor by constructor between tables with the same words (Spec/Lengths: SameWords); the only places where a length is used are the values, which decide about the error for negative durations only (a value out of range saturates and is not an error). C116_multiple keeps apart that an error for a negative duration can come first, and that multipliers which don't fit panic (C93). |
| C117 number_is_optional | two runs of the parser | the relations of the grammar (C27), the mistakes (C71) and the multipliers out of range (C93) are carried over between the two configurations as long as no item is a bare time unit (Spec/Bare); texts with numbers in front of words (Spec/Numbered) have no bare time units by induction over the grammar |
| C118 conjunctions | the list of conjunctions and the conjunction found at a place of the text | C104 is generalised: a configuration only matters through the conjunction found at each suffix of the text (Spec/Local, foundConjunction); the one found is the first in the list, hence independent of the order if no one is the start of another (Spec/Conjunctions) |
| C119 telling parsers apart | the standard parser with any options and any units | for each option a short text which shows it (`1`, `1 1`, `-1`, `1.5`, `1e1`, `inf`, `+ 1`, `u`, `1u ago`, `1 u`, `1u`); by C65 and C104 the parser can be replaced for this text by one of finitely many (only options and units the text can observe), which the kernel evaluates; the converse direction is C104 and C65 |
| C120 longer units | the tables and default units of two parsers with the same words | the parts of a text in the grammar of C27 correspond one to one (Proofs/Longer, as in C116); the value of each part is monotone in coefficient and exponent; sums by monotony of the saturating sum and C27_unambiguous |
| C121 the words of a parser | two parsers with the same options | the text made of a number of value 1 and the word is accepted by the first parser (C27, C89); by the uniqueness of the number in the grammar the second one can accept it only if it knows the word (Proofs/Known); get_time_unit_by_id by C73 |
| C64, C65 one setting at a time | two runs of the parser | the first stage does not read the setting; grammar |

Every listed property is expressed in the model, none had to be left out. MANIFEST.json maps properties to theorems.

## Findings

Witnesses (kernel-checked evaluations of the model) for those findings that no theorem states
are in `lean/Verif/Props/Findings.lean`.

Places where the code deviates from what a user would expect; each is a theorem or an example about
the model, so the properties above are stated with the exact restriction.

* **F1** `parse_duration_with_fixed_number`: for an exponent above 19 the sign is taken from the coefficient only, an explicit minus
  sign is lost: `-unit` with `Multiplier(1, 20)` gives `Duration::MAX` (`C31_sign_lost`).
* **F2** same function: exponents below -18 give zero even when the coefficient is large
  (`C31_small_exponent`). On the number path the value is cut off at 18 decimal places before it is multiplied with the
  unit: "3.17e-17y" is 0 ns although the exact value is 1.0004 ns (C17 states the exact bound).
* **F3** negative zero: "-1e-10" is a zero duration marked as negative, hence `Err(NegativeNumber)` if negative
  durations are not allowed (C19 states the exact boundary, 10^-18).
* **F4** the saturating sum of multiple durations depends on the order if signs are mixed (`C29_order_matters`).
* **F5** `buffered_advance_to` returns a stale buffer if inner and outer delimiter differ
  (`C33_counterexample`).
* **F6** a syntactically valid custom unit can be unreachable (C89 says which exactly): immediately behind a number an
  identifier starting with a digit is never matched, one starting with `e`/`E` only behind a number with an exponent
  ("1e0era", but not "1era", and never if exponents are disabled), one starting with a point only behind a fraction or
  an exponent; alone an identifier starting with a digit, a point or (unless infinity is disabled) `inf` is never matched.
* **F7** `allow_time_unit_delimiter` together with conjunctions: "1 and 2" is an error.
* **F8** conjunctions are tried in order and by prefix: with `["a", "and"]` the text "1s and 2s" is an error (`C118_condition_needed`).
* **F9** numeral * unit * multiplier can overflow and panic with user defined tables (C57 gives the
  condition; `C23_only_multiplication_panics`).
* **F10** delimiters which match non-ASCII bytes can break the contract of `from_utf8_unchecked` (C23 assumes
  ASCII delimiters).
* **F11** `JulianDay::to_gregorian`: `checked_mul(100)? - 25` overflows for exactly one day,
  -92233720366826639 (`C46_to_gregorian`); inherited by gnu `parse_with_date` (`C43_otherwise_overflow`).
* **F12** `Config::default_multiplier` is a public field which is never read by a parser (`C65_default_multiplier`).
* **F13** `From<OffsetDateTime>` keeps the local date and time, `From<chrono::DateTime>` converts to UTC.
* **F14** `From<chrono::NaiveDateTime>` panics for leap seconds (`C53_leap_second`).
* **F15** systemd `parse_with_max` panics also for `Duration::negative(0, 0)`, which equals `Duration::ZERO`
  (`C38_negative_max`).
* **F16** in multiple mode "1.5.5" is 1.5 s + 0.5 s, and "1yesterday" is one second plus the keyword; "1eighth day" (gnu) fails since the `e`
  is taken as an exponent. `checked_add_gregorian` can be `None` although the resulting day is representable, if
  an intermediate day number is not.
* **F17** messages about a single invalid character (`*byte as char`) are wrong for non-ASCII text: "infµ" reports
  `Invalid character 'Â'` (example at the end of `Props/Message.lean`).
* **F18** the limits for multipliers in the documentation of `CustomTimeUnit` (`u64::MAX`, `u64::MAX / 60`, ...) are twice too
  high: the coefficient is an `i64`, the constructors panic above `i64::MAX / 60` etc. (C70 has the exact limits).
* **F19** `SYSTEMD_TIME_UNITS` ("the identifiers as defined in systemd.time") lacks "μs" with U+03BC, which systemd.time(7) documents and
  fundu-systemd accepts; it only has U+00B5 (C69).
* **F20** the error "Input may not start with a delimiter" cannot be returned by any parser of `fundu` or `fundu-systemd`: delimiters are only looked
  for behind a sign, number or word, so " 1s" is reported as `InvalidInput(" 1s")` (C71_never). The check of the position in
  `try_consume_delimiter` is dead code; so is `ParseError::Overflow` outside of `fundu-gnu`.
* **F21** the positions in errors of `fundu-systemd` and `fundu-gnu` are those in the text without the white space in front, not in the text
  given by the user: "  -" is reported as "Syntax error: ... at column 1" (C75, C71).
* **F22** (of the fuzz target, not of the library) `parse_single.rs` makes exceptions for the keyword `yesterday` only if the sign is
  directly in front of it. With `allow_sign_delimiter` and without `allow_negative`, `"- yesterday"` is accepted (one day) and
  `"+ yesterday"` is `NegativeNumber`, and the fuzz target would panic for both (example in `Props/Regex`).
* **F23** the derived `Deserialize` for `DateTime` does not check the time of day: any `u64` is accepted, so the invariant of C48 does not
  hold for a `DateTime` which was read, and from 2^63 on `checked_add_duration` panics instead of returning `None` (example at the end of
  `Props/Serde.lean`). `Duration` has no such problem (C83_duration_valid).
* **F24** (of the example `gnu.rs`) for a result shorter than a second but not zero the line `Human` is empty, e.g. for
  "18446744073709551615sec 1sec -18446744073709551615sec", which saturates at the maximum in between (`C85_gnu_nothing`); a negative result
  shorter than a second would be printed as "-0".
* **F25** (of the example `custom.rs`) the sample output in the documentation is stale for `1.09y` and `1.42mon`: it says
  34398382.959360000 and 3352039.944768000, the program prints 34398383.238400000 and 3352039.944200000 (example in `Props/Examples.lean`).
* **F26** the documented format specification (`fundu/src/lib.rs`, lines 116-145) differs from the program: `Exp` alone (`e5`) is documented
  as a number but rejected by every parser with the standard units (`C96_exponent_alone`); `inf` cannot be followed by a
  `DurationStartingWithDigit`; a number without unit followed by one is read as a single number or rejected (`1.` + `5.`); on the other
  hand a sign may follow a duration directly (`1s+2s`) and a point may follow a number with a point (`1.5.5`), which are not in the
  documented rules (`C96_deviations`).
* **F27** the `Display` of a duration with microseconds (`1s 2Ms`) is rejected by all functions of fundu-systemd, whose microseconds are `us`,
  `usec`, `µs`; the `Display` of zero (`0ns`) is rejected by the functions without nanosecond units (`C98_display_rejected`, `C98_display_zero`).
* **F28** with inner delimiters which are not outer delimiters, `allow_ago` and keywords, the time of a parser of several durations can be
  quadratic: inner delimiters `s` and `,`, outer delimiter `,`, number optional, time unit `s`, text `s,s,…,s,x` (the search for `ago` skips
  the rest of the text after each time unit; `C103_condition`: no constant is enough). With nested delimiters it is linear (`C103_linear`).
