import Verif.Spec.Message
import Verif.Props.Errors
import Verif.Props.Display
import Verif.Props.Conversion
/-!
# Property C67: the messages of errors
-/
namespace Fundu.Props
open Fundu Fundu.Spec

theorem append_digits_unique {a D a' D' : Bytes} {x : UInt8} (hx : ¬ IsDigit x) (hD : AllDigits D) (hD' : AllDigits D')
    (h : (a ++ [x]) ++ D = (a' ++ [x]) ++ D') : a = a' ∧ D = D' := by
  have h1 : Split IsDigit (((a ++ [x]) ++ D).reverse) D.reverse (a ++ [x]).reverse :=
    ⟨by rw [List.reverse_append], fun b hb => hD b (List.mem_reverse.1 hb), by
      rw [List.reverse_append]
      rintro ⟨b, l, e, hb⟩
      cases e
      exact hx hb⟩
  have h2 : Split IsDigit (((a ++ [x]) ++ D).reverse) D'.reverse (a' ++ [x]).reverse :=
    ⟨by rw [h, List.reverse_append], fun b hb => hD' b (List.mem_reverse.1 hb), by
      rw [List.reverse_append]
      rintro ⟨b, l, e, hb⟩
      cases e
      exact hx hb⟩
  obtain ⟨e1, e2⟩ := split_unique h1 h2
  have e2 := List.reverse_injective e2
  exact ⟨List.append_cancel_right e2, List.reverse_injective e1⟩

theorem decDigits_injective {n m : Nat} (h : Duration.decDigits n = Duration.decDigits m) : n = m := by
  rw [← (decDigits_spec n).2.2, h, (decDigits_spec m).2.2]

theorem column_unique {a a' : Bytes} {n m : Nat}
    (h : a ++ b! " at column " ++ Duration.decDigits n = a' ++ b! " at column " ++ Duration.decDigits m) : a = a' ∧ n = m := by
  have e : b! " at column " = b! " at column" ++ [32] := rfl
  rw [e, ← List.append_assoc, ← List.append_assoc] at h
  obtain ⟨h1, h2⟩ := append_digits_unique (by decide) (decDigits_spec n).1 (decDigits_spec m).1 h
  exact ⟨List.append_cancel_right h1, decDigits_injective h2⟩

/-- the first bytes of the messages of each kind of error -/
def tag : ParseError → Bytes
  | .syntax _ _ => b! "Sy" | .overflow => b! "Number o" | .timeUnit _ _ => b! "Ti" | .negativeExponentOverflow => b! "Ne"
  | .positiveExponentOverflow => b! "Po" | .negativeNumber => b! "Number w" | .invalidInput _ => b! "In" | .empty => b! "Em"

theorem tag_prefix (e : ParseError) : (tag e).isPrefixOf e.display = true := by cases e <;> rfl

/-- C67: The message of an error determines the kind of the error, its position and the text of its reason. -/
theorem C67_messages (e e' : ParseError) (h : e.display = e'.display) : view e = view e' := by
  have h1 := tag_prefix e
  have h2 := tag_prefix e'
  rw [h] at h1
  rw [List.isPrefixOf_iff_prefix] at h1 h2
  have h3 : ((tag e).isPrefixOf (tag e') || (tag e').isPrefixOf (tag e)) = true := by
    rw [Bool.or_eq_true, List.isPrefixOf_iff_prefix, List.isPrefixOf_iff_prefix]
    exact List.prefix_or_prefix_of_prefix h1 h2
  cases e <;> cases e' <;> first | rfl | exact absurd h3 Bool.false_ne_true | skip
  case syntax.syntax p r p' r' =>
    have h := List.append_cancel_left (as := b! "Syntax error: ") (by simpa only [ParseError.display, List.append_assoc] using h)
    rw [← List.append_assoc, ← List.append_assoc] at h
    obtain ⟨e1, rfl⟩ := column_unique h
    exact congrArg (ErrorView.syntax p) e1
  case timeUnit.timeUnit p r p' r' =>
    have h := List.append_cancel_left (as := b! "Time unit error: ") (by simpa only [ParseError.display, List.append_assoc] using h)
    rw [← List.append_assoc, ← List.append_assoc] at h
    obtain ⟨e1, rfl⟩ := column_unique h
    exact congrArg (ErrorView.timeUnit p) e1
  case invalidInput.invalidInput r r' =>
    have h := List.append_cancel_left (as := b! "Invalid input: ") h
    exact congrArg ErrorView.invalidInput h

/-- the first bytes of the messages of each reason -/
def reasonTag : Reason → Bytes
  | .expectedEndOfInput _ => b! "Expected en" | .delimiterAtStart => b! "Input may not s" | .delimiterAtEnd => b! "Input may not end with a d"
  | .unexpectedEnd => b! "U" | .signWithoutNumber => b! "U"
  | .wholeOrFractionMustBePresent => b! "Ei" | .noFractionAllowed => b! "No f" | .expectedExponent => b! "Expected ex"
  | .exponentWithoutDigit => b! "The" | .noExponentAllowed => b! "No e" | .infinityInvalidCharacter _ => b! "Error parsing infinity: I"
  | .infinityPrematureEnd => b! "Error parsing infinity: P" | .infinityInvalidIdentifier _ => b! "Error parsing infinity: '"
  | .infinityExpectedDelimiter _ => b! "Error parsing infinity: E" | .invalidTimeUnit _ => b! "Inv" | .noTimeUnitsAllowed _ => b! "No t"
  | .numeralWithoutTimeUnitsDefined _ => b! "Fo" | .numeralWithoutTimeUnit _ => b! "Fo" | .conjunctionNotSeparated _ => b! "A"
  | .conjunctionAtEnd _ => b! "Input may not end with a c" | .text _ => [] | .utf8Error => b! "inv"
  | .fractionWithoutWhole => b! "Fraction without a w" | .fractionWithoutFraction => b! "Fraction without a f"
  | .fractionOnlyWithSeconds => b! "Fraction o"

theorem reasonTag_prefix (r : Reason) : (reasonTag r).isPrefixOf r.message = true := by cases r <;> rfl

theorem byteAsChar_injective {b c : UInt8} (h : byteAsChar b = byteAsChar c) : b = c := by
  unfold byteAsChar at h
  have hb := b.toNat_lt
  have hc := c.toNat_lt
  apply UInt8.toNat_inj.1
  by_cases h1 : b.toNat < 128 <;> by_cases h2 : c.toNat < 128
  · rw [if_pos h1, if_pos h2] at h
    rw [(List.cons.inj h).1]
  · rw [if_pos h1, if_neg h2] at h
    cases (List.cons.inj h).2
  · rw [if_neg h1, if_pos h2] at h
    cases (List.cons.inj h).2
  · rw [if_neg h1, if_neg h2] at h
    have e1 := congrArg UInt8.toNat (List.cons.inj h).1
    have e2 := congrArg UInt8.toNat (List.cons.inj (List.cons.inj h).2).1
    rw [UInt8.toNat_ofNat', UInt8.toNat_ofNat'] at e1 e2
    omega

theorem quoted_cancel {a t b t' : Bytes} (h : a ++ t ++ b = a ++ t' ++ b) : t = t' :=
  List.append_cancel_left (List.append_cancel_right h)

/-- C67: Different reasons have different texts: the text of a reason says which one it is and, if it quotes a part of the input,
which part this is. (Only the reason of invalid input, which is nothing but a part of the input, is excluded.) -/
theorem C67_reasons (r r' : Reason) (hr : ∀ t, r ≠ .text t) (hr' : ∀ t, r' ≠ .text t) (h : r.message = r'.message) : r = r' := by
  have h1 := reasonTag_prefix r
  have h2 := reasonTag_prefix r'
  rw [h] at h1
  rw [List.isPrefixOf_iff_prefix] at h1 h2
  have h3 : ((reasonTag r).isPrefixOf (reasonTag r') || (reasonTag r').isPrefixOf (reasonTag r)) = true := by
    rw [Bool.or_eq_true, List.isPrefixOf_iff_prefix, List.isPrefixOf_iff_prefix]
    exact List.prefix_or_prefix_of_prefix h1 h2
  clear h1 h2
  have last : ∀ {a b : Bytes} {x y : UInt8}, a ++ [x] = b ++ [y] → x = y := by
    intro a b x y h
    have := congrArg List.getLast? h
    simpa using this
  cases r <;> cases r' <;> first | rfl | exact absurd h3 Bool.false_ne_true | exact absurd rfl (hr _) | exact absurd rfl (hr' _) |
    exact congrArg _ (quoted_cancel h) | exact congrArg _ (byteAsChar_injective (quoted_cancel h)) | skip
  case unexpectedEnd.signWithoutNumber => exact absurd h (by decide)
  case signWithoutNumber.unexpectedEnd => exact absurd h (by decide)
  case numeralWithoutTimeUnitsDefined.numeralWithoutTimeUnit a b =>
    have e1 : Reason.message (.numeralWithoutTimeUnitsDefined a) = (b! "Found numeral '" ++ a ++ b! "' without time units being define") ++ [100] := by
      rw [List.append_assoc (b! "Found numeral '" ++ a)]; rfl
    have e2 : Reason.message (.numeralWithoutTimeUnit b) = (b! "Found numeral '" ++ b ++ b! "' without a time uni") ++ [116] := by
      rw [List.append_assoc (b! "Found numeral '" ++ b)]; rfl
    rw [e1, e2] at h
    exact absurd (last h) (by decide)
  case numeralWithoutTimeUnit.numeralWithoutTimeUnitsDefined b a =>
    have e1 : Reason.message (.numeralWithoutTimeUnitsDefined a) = (b! "Found numeral '" ++ a ++ b! "' without time units being define") ++ [100] := by
      rw [List.append_assoc (b! "Found numeral '" ++ a)]; rfl
    have e2 : Reason.message (.numeralWithoutTimeUnit b) = (b! "Found numeral '" ++ b ++ b! "' without a time uni") ++ [116] := by
      rw [List.append_assoc (b! "Found numeral '" ++ b)]; rfl
    rw [e1, e2] at h
    exact absurd (last h) (by decide)

/-- C67: The messages of errors with a position end with the position in decimal digits behind ` at column `. -/
theorem C67_column (p : Nat) (reason : Reason) (e : ParseError) (he : e = .syntax p reason ∨ e = .timeUnit p reason) :
    ∃ a D, e.display = a ++ b! " at column " ++ D ∧ D ≠ [] ∧ AllDigits D ∧ decimal D = p := by
  obtain ⟨h1, h2, h3⟩ := decDigits_spec p
  rcases he with rfl | rfl
  · exact ⟨_, _, rfl, h2, h1, h3⟩
  · exact ⟨_, _, rfl, h2, h1, h3⟩

theorem text_append {a b : Bytes} (ha : IsText a) (hb : IsText b) : IsText (a ++ b) := by
  rw [isText_iff] at *
  exact utf8Valid_append ha hb

theorem byteAsChar_text (b : UInt8) : IsText (byteAsChar b) := by
  rw [isText_iff]
  have : ∀ n < 256, utf8Valid (byteAsChar (UInt8.ofNat n)) = true := by decide +kernel
  have := this b.toNat b.toNat_lt
  rwa [UInt8.ofNat_toNat] at this

theorem quoted_text {a t b : Bytes} (ha : IsText a) (ht : IsText t) (hb : IsText b) : IsText (a ++ t ++ b) :=
  text_append (text_append ha ht) hb

theorem digits_text {D : Bytes} (h : AllDigits D) : IsText D :=
  isText_ascii (fun b hb => by have := h b hb; unfold IsDigit at this; omega)

theorem same_text_text {t x : Bytes} (h : SameText t x) (hx : ∀ b ∈ x, b.toNat < 128) : IsText t := by
  refine isText_ascii (fun b hb => ?_)
  have hm : lower b ∈ x.map lower := by
    have : t.map lower = x.map lower := h
    rw [← this]
    exact List.mem_map_of_mem hb
  obtain ⟨c, hc, hl⟩ := List.mem_map.1 hm
  have key : ∀ n < 256, ∀ m < 128, lower (UInt8.ofNat m) = lower (UInt8.ofNat n) → n < 128 := by decide +kernel
  refine key b.toNat b.toNat_lt c.toNat (hx c hc) ?_
  rw [UInt8.ofNat_toNat, UInt8.ofNat_toNat, hl]

theorem syntaxClaim_text {cfg : Config} {a r : Bytes} {reason : Reason} (hc : CfgText cfg) (hr : IsText r)
    (h : SyntaxClaim cfg a r reason) : IsText reason.message := by
  cases reason <;> first | exact isText_ascii (by decide) | exact absurd h id | skip
  case expectedEndOfInput t =>
    obtain ⟨rfl, -⟩ := h
    exact quoted_text (isText_ascii (by decide)) hr (isText_ascii (by decide))
  case infinityInvalidCharacter b =>
    exact quoted_text (isText_ascii (by decide)) (byteAsChar_text b) (isText_ascii (by decide))
  case infinityExpectedDelimiter b =>
    exact quoted_text (isText_ascii (by decide)) (byteAsChar_text b) (isText_ascii (by decide))
  case conjunctionNotSeparated b =>
    exact quoted_text (isText_ascii (by decide)) (byteAsChar_text b) (isText_ascii (by decide))
  case infinityInvalidIdentifier t =>
    obtain ⟨w, x, y, -, -, h1, -, -, h2⟩ := h
    refine quoted_text (isText_ascii (by decide)) (same_text_text h2 ?_) (isText_ascii (by decide))
    intro b hb
    have : ∀ b ∈ b! "inity", b.toNat < 128 := by decide
    exact this b (by rw [h1]; exact List.mem_append_left _ hb)
  case conjunctionAtEnd w =>
    refine quoted_text (isText_ascii (by decide)) ?_ (isText_ascii (by decide))
    cases hcj : cfg.conjunctions with
    | none => have := h.1; rw [hcj] at this; cases this
    | some ws =>
      have := h.1
      rw [hcj] at this
      exact hc.conjunctions ws hcj w this

theorem timeUnitClaim_text {cfg : Config} {units : TimeUnitsLike} {numerals : Option NumbersLike} {a r : Bytes}
    {reason : Reason} (hr : IsText r) (h : TimeUnitClaim cfg units numerals a r reason) : IsText reason.message := by
  cases reason <;> first | exact absurd h id | skip
  case invalidTimeUnit t =>
    obtain ⟨rfl, -⟩ := h
    exact quoted_text (isText_ascii (by decide)) hr (isText_ascii (by decide))
  case noTimeUnitsAllowed t =>
    obtain ⟨rfl, -⟩ := h
    exact quoted_text (isText_ascii (by decide)) hr (isText_ascii (by decide))
  case numeralWithoutTimeUnit id =>
    obtain ⟨-, -, -, l, ds, -, h1, -⟩ := h
    exact quoted_text (isText_ascii (by decide)) h1 (isText_ascii (by decide))
  case numeralWithoutTimeUnitsDefined id =>
    obtain ⟨-, -, -, l, ds, -, h1, -⟩ := h
    exact quoted_text (isText_ascii (by decide)) h1 (isText_ascii (by decide))

theorem claim_text {cfg : Config} {units : TimeUnitsLike} {numerals : Option NumbersLike} {s : Bytes} {e : ParseError}
    (hc : CfgText cfg) (h : Claim cfg units numerals s e) : IsText e.display := by
  cases e with
  | «syntax» p reason =>
    obtain ⟨a, r, -, -, -, hr, h⟩ := h
    exact text_append (quoted_text (isText_ascii (by decide)) (syntaxClaim_text hc hr h) (isText_ascii (by decide)))
      (digits_text (decDigits_spec p).1)
  | timeUnit p reason =>
    obtain ⟨a, r, -, -, -, hr, h⟩ := h
    exact text_append (quoted_text (isText_ascii (by decide)) (timeUnitClaim_text hr h) (isText_ascii (by decide)))
      (digits_text (decDigits_spec p).1)
  | invalidInput reason =>
    cases reason <;> first | exact absurd h id | skip
    case text t => exact text_append (isText_ascii (by decide)) h.1
  | _ => exact isText_ascii (by decide)

/-- C67: The message of any error of a parser is valid text (`String` must be UTF-8). -/
theorem C67_text (cfg : Config) (units : TimeUnitsLike) (keywords : Option TimeUnitsLike) (numerals : Option NumbersLike)
    (s : Bytes) (e : ParseError) (hs : IsText s) (hc : CfgText cfg) (h : parse cfg units keywords numerals s = fail e) :
    IsText e.display :=
  claim_text hc (C66_errors cfg units keywords numerals s e hs hc h)

/-- C67: the same for `fundu_systemd` -/
theorem C67_text_systemd (u : TimeUnit) (s : Bytes) (max : Duration) (e : ParseError) (hs : IsText s)
    (h : (Systemd.TimeSpanParser.withDefaultUnit u).parseWithMax s max = fail e ∨
      (Systemd.TimeSpanParser.withDefaultUnit u).parseNanosWithMax s max = fail e) : IsText e.display := by
  rcases h with h | h
  · obtain ⟨t, -, h⟩ := C66_systemd u s max e hs h
    exact claim_text (systemd_cfgText u) h
  · obtain ⟨t, -, h⟩ := C66_systemd_nanos u s max e hs h
    exact claim_text (systemd_cfgText u) h

/-- C67: the same for `fundu_gnu` -/
theorem C67_text_gnu (now : DateTime) (s : Bytes) (date : Option DateTime) (e : ParseError) (hs : IsText s)
    (h : Gnu.parseWithDate now s date = fail e) : IsText e.display := by
  rcases C66_gnu now s date e hs h with ⟨rfl, -⟩ | ⟨t, -, h | ⟨reason, rfl, hf⟩⟩
  · exact isText_ascii (by decide)
  · exact claim_text Gnu.config_text h
  · cases reason <;> first | exact isText_ascii (by decide) | exact False.elim hf

/-- C67: If a parser finds an invalid time unit, the message quotes the text from the reported position to the end. -/
theorem C67_quotes (cfg : Config) (units : TimeUnitsLike) (keywords : Option TimeUnitsLike) (numerals : Option NumbersLike)
    (s t : Bytes) (p : Nat) (hs : IsText s) (hc : CfgText cfg)
    (h : parse cfg units keywords numerals s = fail (.timeUnit p (.invalidTimeUnit t))) :
    p < s.length ∧ ∃ D, AllDigits D ∧ decimal D = p ∧ (ParseError.timeUnit p (.invalidTimeUnit t)).display =
      b! "Time unit error: Invalid time unit: '" ++ s.drop p ++ b! "' at column " ++ D := by
  obtain ⟨a, r, h1, h2, -, -, rfl, h3, -⟩ := C66_errors cfg units keywords numerals s _ hs hc h
  have hr : s.drop p = t := by rw [h1, ← h2, List.drop_left]
  refine ⟨?_, _, (decDigits_spec p).1, (decDigits_spec p).2.2, ?_⟩
  · rw [h1, List.length_append, h2]
    have := List.length_pos_of_ne_nil h3
    omega
  · rw [hr]
    simp [ParseError.display, Reason.message]

/-- C67: An error of a conversion of a duration becomes `NegativeNumber` if the target has no negative durations, and
`Overflow` if the duration is out of the range of the target. -/
theorem C67_conversion (d : Duration) (h : d.WF) :
    (∀ e, d.toStd = .error e → nanos d < 0 ∧ ParseError.ofConversion e = .negativeNumber) ∧
    (∀ e, d.toTime = .ok (.error e) → ¬ FitsTime (nanos d) ∧ ParseError.ofConversion e = .overflow) ∧
    (∀ e, d.toChrono = .ok (.error e) →
      (nanos d < chronoNanos ChronoDuration.MIN ∨ chronoNanos ChronoDuration.MAX < nanos d) ∧
      ParseError.ofConversion e = .overflow) := by
  refine ⟨fun e he => ?_, fun e he => ?_, fun e he => ?_⟩
  · obtain ⟨h1, h2⟩ := C07_to_std d h
    by_cases h0 : 0 ≤ nanos d
    · obtain ⟨s, hs, -⟩ := h1 h0
      rw [hs] at he; cases he
    · have h0 : nanos d < 0 := by omega
      rw [h2 h0] at he
      cases he
      exact ⟨h0, rfl⟩
  · obtain ⟨r, hr, h1, h2, h3⟩ := C08_to_time d h
    rw [hr] at he
    cases he
    by_cases ha : nanos d < timeNanos TimeDuration.MIN
    · cases h2 ha
      exact ⟨fun hf => by have := hf.1; omega, rfl⟩
    · by_cases hb : timeNanos TimeDuration.MAX < nanos d
      · cases h3 hb
        exact ⟨fun hf => by have := hf.2; omega, rfl⟩
      · obtain ⟨t, ht, -⟩ := h1 ⟨by omega, by omega⟩
        cases ht
  · obtain ⟨r, hr, h1, h2, h3⟩ := C09_to_chrono d h
    rw [hr] at he
    cases he
    by_cases ha : nanos d < chronoNanos ChronoDuration.MIN
    · cases h2 ha
      exact ⟨Or.inl ha, rfl⟩
    · by_cases hb : chronoNanos ChronoDuration.MAX < nanos d
      · cases h3 hb
        exact ⟨Or.inr hb, rfl⟩
      · obtain ⟨t, ht, -⟩ := h1 ⟨by omega, by omega⟩
        cases ht

/-! The messages of some errors. -/

example :
    (ParseError.timeUnit 12 (.invalidTimeUnit (b! "x"))).display = b! "Time unit error: Invalid time unit: 'x' at column 12" ∧
    (ParseError.syntax 0 .delimiterAtStart).display = b! "Syntax error: Input may not start with a delimiter at column 0" ∧
    ParseError.negativeExponentOverflow.display = b! "Negative exponent overflow: Minimum is -32768" ∧
    (ParseError.ofConversion .negativeOverflow).display = b! "Number overflow" := by decide +kernel

/-- two reasons whose texts start alike -/
example : (Reason.numeralWithoutTimeUnit (b! "x")).message ≠ (Reason.numeralWithoutTimeUnitsDefined (b! "x")).message :=
  fun h => absurd (C67_reasons _ _ (fun _ h => by cases h) (fun _ h => by cases h) h) (by decide)

/-- Messages about single characters are only right for ASCII characters: for others they show the character whose code
point is the first byte of the encoding (here `Â` instead of `µ`). -/
example :
    DurationParser.new.parse (b! "infµ") = fail (.syntax 3 (.infinityInvalidCharacter 194)) ∧
    (ParseError.syntax 3 (.infinityInvalidCharacter 194)).display =
      b! "Syntax error: Error parsing infinity: Invalid character 'Â' at column 3" := by decide +kernel

/-- the premises of `C67_conversion` can be met -/
example : (⟨true, ⟨1, 0⟩⟩ : Duration).toStd = .error .negativeDuration ∧
    Duration.MAX.toTime = .ok (.error .positiveOverflow) ∧ Duration.MIN.toChrono = .ok (.error .negativeOverflow) := by
  decide +kernel

end Fundu.Props
