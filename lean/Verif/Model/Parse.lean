import Verif.Model.Bytes
/-!
# Model of the parser in fundu-core/src/parse.rs

`ReprParserSingle` and `ReprParserMultiple` implement the template trait `ReprParserTemplate`; both have a
`Bytes` as only field, so a parser is a `Cursor` together with a `Mode`. The output of the template is
`(DurationRepr, Option Cursor)`: the cursor to continue with in the loop of `parse_multiple`, always `none`
in single mode. Methods taking `&mut DurationRepr` return the fields they set.
-/
namespace Fundu

/-- which implementation of `ReprParserTemplate` (parse.rs:1276-1278, parse.rs:1469-1471) -/
inductive Mode where
  | single
  | multiple
  deriving DecidableEq, Repr

/-- output of the template's `parse` -/
abbrev Output := DurationRepr × Option Cursor

/-- the result of a lookup: a time unit and its multiplier -/
abbrev Unit' := TimeUnit × Multiplier

/-- The arguments of `ReprParserTemplate::parse` (parse.rs:988-994), which do not change while parsing.
`scan` is not an argument in the source: it is the function which finds the next word, always
`Bytes::buffered_advance_to` there. It is a parameter here to be able to say that a parser with the
unbuffered `Bytes::advance_to` instead gives the same results. -/
structure Env where
  cfg : Config
  units : TimeUnitsLike
  keywords : Option TimeUnitsLike := none
  numerals : Option NumbersLike := none
  scan : Delimiter → Cursor → R (Bytes × Cursor) := Cursor.bufferedAdvanceTo

/-- parse.rs:1481-1483 -/
def isNextDuration (b : UInt8) : Bool := isDigit b || b = 43 || b = 45

/-- parse.rs:1499-1520: what follows a conjunction -/
def afterConjunction (d : Delimiter) (start : Nat) (word : Bytes) (c : Cursor) : R Cursor :=
  match c.cur with
  | some b =>
    if d b then c.tryConsumeDelimiter d
    else if isNextDuration b then .ok c
    else fail (.syntax c.pos (.conjunctionNotSeparated b))
  | none => fail (.syntax start (.conjunctionAtEnd word))

/-- parse.rs:1495-1523: the loop over the conjunctions in `try_consume_connection` -/
def consumeConjunction (d : Delimiter) (start : Nat) (c : Cursor) : List Bytes → R Cursor
  | [] => .ok c
  | word :: words =>
    if c.nextIs word then afterConjunction d start word (c.advanceBy word.length)
    else consumeConjunction d start c words

/-- parse.rs:1485-1525 -/
def tryConsumeConnection (d : Delimiter) (conjunctions : List Bytes) (c : Cursor) : R Cursor := do
  Cursor.assertDelimiter d c
  let c ← c.tryConsumeDelimiter d
  consumeConjunction d c.pos c conjunctions

/-- `try_consume_connection(config.outer_delimiter, config.conjunctions.unwrap_or_default())`,
parse.rs:1551-1554, 1596-1599, 1642-1645, 1725-1728, 1766-1769 -/
def tryConnection (cfg : Config) (c : Cursor) : R Cursor :=
  tryConsumeConnection cfg.outerDelimiter (cfg.conjunctions.getD []) c

/-- `self.bytes().current_byte.map(|_| self)`, parse.rs:1538 -/
def unlessEnd (c : Cursor) : Option Cursor :=
  match c.cur with
  | some _ => some c
  | none => none

/-- parse.rs:1297-1299 and parse.rs:1537-1539 `make_output` -/
def makeOutput (mode : Mode) (r : DurationRepr) (c : Cursor) : Output :=
  match mode with
  | .single => (r, none)
  | .multiple => (r, unlessEnd c)

/-- parse.rs:1764-1773 -/
def finalizeMultiple (cfg : Config) (r : DurationRepr) (c : Cursor) : R Output :=
  match c.cur with
  | some b =>
    if cfg.outerDelimiter b then do
      let c ← tryConnection cfg c
      return (r, some c)
    else .ok (r, some c)
  | none => .ok (r, none)

/-- parse.rs:1460-1466 and parse.rs:1759-1774 `finalize` -/
def finalize (mode : Mode) (cfg : Config) (r : DurationRepr) (c : Cursor) : R Output :=
  match mode with
  | .single => do
    c.checkEnd
    return (r, none)
  | .multiple => finalizeMultiple cfg r c

/-! ## Infinity -/

/-- the loop over the bytes of `inity` in single mode, parse.rs:1312-1333 -/
def inityLoop (c : Cursor) : Bytes → R Cursor
  | [] => .ok c
  | b :: bs =>
    match c.cur with
    | some current =>
      if toLower current = toLower b then inityLoop c.advance bs
      else fail (.syntax c.pos (.infinityInvalidCharacter current))
    | none => fail (.syntax c.pos .infinityPrematureEnd)

/-- the loop over the bytes of `inity` in multiple mode, parse.rs:1566-1591 -/
def inityLoopMultiple (start : Nat) (c : Cursor) : Bytes → R Cursor
  | [] => .ok c
  | b :: bs =>
    match c.cur with
    | some current =>
      if toLower current = toLower b then inityLoopMultiple start c.advance bs
      else fail (.syntax c.pos (.infinityInvalidCharacter current))
    | none => do
      let pos ← liftP (subUsize start 3)
      let text ← c.getCurrentStrUnwrap start
      fail (.syntax pos (.infinityInvalidIdentifier text))

/-- parse.rs:1594-1610: after `infinity` in multiple mode -/
def afterInfinity (cfg : Config) (r : DurationRepr) (c : Cursor) : R Output :=
  match c.cur with
  | some b =>
    if cfg.outerDelimiter b then do
      let c ← tryConnection cfg c
      return (r, some c)
    else fail (.syntax c.pos (.infinityExpectedDelimiter b))
  | none => .ok (r, none)

/-- parse.rs:1302-1337 `parse_infinity_remainder` in single mode; `r.isInfinite` is already set -/
def infinitySingle (r : DurationRepr) (c : Cursor) : R Output :=
  match c.cur with
  | none => .ok (r, none)
  | some _ => do
    let c ← inityLoop c (b! "inity")
    c.checkEnd
    return (r, none)

/-- parse.rs:1542-1611 `parse_infinity_remainder` in multiple mode; `r.isInfinite` is already set -/
def infinityMultiple (cfg : Config) (r : DurationRepr) (c : Cursor) : R Output :=
  match c.cur with
  | none => .ok (r, none)
  | some b =>
    if cfg.outerDelimiter b then do
      let c ← tryConnection cfg c
      return (r, some c)
    else do
      let c ← inityLoopMultiple c.pos c (b! "inity")
      afterInfinity cfg r c

/-- parse.rs:1302-1337 and parse.rs:1542-1611 `parse_infinity_remainder` -/
def parseInfinityRemainder (mode : Mode) (cfg : Config) (r : DurationRepr) (c : Cursor) : R Output :=
  match mode with
  | .single => infinitySingle { r with isInfinite := true } c
  | .multiple => infinityMultiple cfg { r with isInfinite := true } c

/-! ## Words -/

/-- the delimiter of words in multiple mode, parse.rs:1621-1623, 1676-1678 -/
def wordEnd (cfg : Config) (b : UInt8) : Bool := cfg.outerDelimiter b || isNextDuration b

/-- the delimiter of words in multiple mode with `allow_ago`, parse.rs:1670-1674 -/
def wordEndAgo (cfg : Config) (b : UInt8) : Bool :=
  cfg.innerDelimiter b || cfg.outerDelimiter b || isNextDuration b

/-- `if let Some(byte) = current_byte { if outer_delimiter(byte) { try_consume_connection(..)? } }`,
parse.rs:1640-1647 and 1723-1731 -/
def consumeConnectionIfAny (cfg : Config) (c : Cursor) : R Cursor :=
  match c.cur with
  | some b => if cfg.outerDelimiter b then tryConnection cfg c else .ok c
  | none => .ok c

/-- parse.rs:1634-1650: what follows a keyword in multiple mode; `start` is the cursor before the word -/
def keywordFound (cfg : Config) (start c : Cursor) : Option Unit' → R (Option Unit' × Cursor)
  | none => .ok (none, c.reset start.pos)
  | some u => do
    let c ← consumeConnectionIfAny cfg c
    return (some u, c)

/-- parse.rs:1614-1654 `parse_keyword` in multiple mode, with keywords -/
def parseKeywordMultiple (env : Env) (keywords : TimeUnitsLike) (c : Cursor) :
    R (Option Unit' × Cursor) := do
  let (buffer, c') ← env.scan (wordEnd env.cfg) c
  if buffer.isEmpty then return (none, c')
  else
    let string ← utf8Unchecked buffer
    keywordFound env.cfg c c' (keywords.get string)

/-- the remainder of the input is looked up, parse.rs:1347-1354 and parse.rs:1412-1418 -/
def lookupRemainder (units : TimeUnitsLike) (c : Cursor) : R (Option Unit' × Cursor) := do
  let string ← c.getRemainderStrUnchecked
  match units.get string with
  | none => return (none, c)
  | some u => return (some u, c.finish)

/-- parse.rs:1340-1358 and parse.rs:1614-1654 `parse_keyword` -/
def parseKeyword (mode : Mode) (env : Env) (c : Cursor) : R (Option Unit' × Cursor) :=
  match env.keywords with
  | none => .ok (none, c)
  | some keywords =>
    match mode with
    | .single => lookupRemainder keywords c
    | .multiple => parseKeywordMultiple env keywords c

/-- `debug_assert!(self.bytes.current_byte.is_some())`, parse.rs:1366-1369 and 1663-1666 -/
def assertSome (c : Cursor) : R Unit :=
  match c.cur with
  | some _ => .ok ()
  | none => panic .assert

/-- parse.rs:1394-1408: `ago` after a time unit in single mode; `none` if there is something else;
`start` is the cursor before the word -/
def agoSingle (cfg : Config) (start : Cursor) (u : Unit') (c : Cursor) : R (Option Unit' × Cursor) :=
  match c.cur with
  | some _ => do
    let c ← c.tryConsumeDelimiter cfg.innerDelimiter
    if c.nextIs (b! "ago") then return (some (u.1, u.2.saturatingNeg), c.advanceBy 3)
    else return (none, c.reset start.pos)
  | none => .ok (some u, c)

/-- parse.rs:1383-1408 -/
def unitFoundSingle (cfg : Config) (start c : Cursor) : Option Unit' → R (Option Unit' × Cursor)
  | none => .ok (none, c.reset start.pos)
  | some u => agoSingle cfg start u c

/-- parse.rs:1371-1408: a time unit in single mode with `allow_ago` -/
def parseTimeUnitAgo (env : Env) (c : Cursor) : R (Option Unit' × Cursor) := do
  let (buffer, c') ← c.advanceTo env.cfg.innerDelimiter
  let string ← utf8Unchecked buffer
  if string.isEmpty then return (none, c')
  else unitFoundSingle env.cfg c c' (env.units.get string)

/-- parse.rs:1360-1420 `parse_time_unit` in single mode -/
def parseTimeUnitSingle (env : Env) (c : Cursor) : R (Option Unit' × Cursor) := do
  assertSome c
  if env.cfg.allowAgo then parseTimeUnitAgo env c
  else lookupRemainder env.units c

/-- parse.rs:1703-1715: what follows `ago` in multiple mode; `start` is the cursor before the delimiter -/
def afterAgo (cfg : Config) (start : Cursor) (u : Unit') (c : Cursor) : Unit' × Cursor :=
  match c.cur with
  | some b =>
    if cfg.outerDelimiter b || isNextDuration b then ((u.1, u.2.saturatingNeg), c)
    else (u, c.reset start.pos)
  | none => ((u.1, u.2.saturatingNeg), c)

/-- parse.rs:1696-1721: `ago` after a time unit in multiple mode -/
def agoMultiple (cfg : Config) (u : Unit') (c : Cursor) : R (Unit' × Cursor) :=
  match c.cur with
  | some b =>
    if cfg.allowAgo && cfg.innerDelimiter b then do
      let c' ← c.tryConsumeDelimiter cfg.innerDelimiter
      if c'.nextIs (b! "ago") then return afterAgo cfg c u (c'.advanceBy 3)
      else return (u, c'.reset c.pos)
    else .ok (u, c)
  | none => .ok (u, c)

/-- parse.rs:1688-1733 -/
def unitFoundMultiple (cfg : Config) (start c : Cursor) : Option Unit' → R (Option Unit' × Cursor)
  | none => .ok (none, c.reset start.pos)
  | some u => do
    let (u, c) ← agoMultiple cfg u c
    let c ← consumeConnectionIfAny cfg c
    return (some u, c)

/-- parse.rs:1669-1679: the end of a time unit in multiple mode -/
def unitEnd (cfg : Config) : Delimiter := if cfg.allowAgo then wordEndAgo cfg else wordEnd cfg

/-- parse.rs:1657-1734 `parse_time_unit` in multiple mode -/
def parseTimeUnitMultiple (env : Env) (c : Cursor) : R (Option Unit' × Cursor) := do
  assertSome c
  let (buffer, c') ← env.scan (unitEnd env.cfg) c
  if buffer.isEmpty then return (none, c')
  else
    let string ← utf8Unchecked buffer
    unitFoundMultiple env.cfg c c' (env.units.get string)

/-- `parse_time_unit` of the two implementations, parse.rs:1360-1420, 1657-1734 -/
def parseTimeUnit (mode : Mode) (env : Env) (c : Cursor) : R (Option Unit' × Cursor) :=
  match mode with
  | .single => parseTimeUnitSingle env c
  | .multiple => parseTimeUnitMultiple env c

/-- parse.rs:968-983: what follows a numeral; `start` is the cursor before the word -/
def numeralFound (cfg : Config) (start c : Cursor) (string : Bytes) :
    Option Multiplier → R (Option (Bytes × Multiplier) × Cursor)
  | none => .ok (none, c.reset start.pos)
  | some m =>
    match c.cur with
    | some b =>
      if cfg.innerDelimiter b then do
        let c ← c.tryConsumeDelimiter cfg.innerDelimiter
        return (some (string, m), c)
      else .ok (none, c.reset start.pos)
    | none => .ok (none, c.reset start.pos)

/-- parse.rs:951-986 -/
def parseNumeral (env : Env) (c : Cursor) : R (Option (Bytes × Multiplier) × Cursor) :=
  match env.numerals with
  | none => .ok (none, c)
  | some numerals => do
    let (buffer, c') ← env.scan env.cfg.innerDelimiter c
    if buffer.isEmpty then return (none, c')
    else
      let string ← utf8Unchecked buffer
      numeralFound env.cfg c c' string (numerals string)

/-! ## Numbers -/

/-- parse.rs:1103-1120 -/
def parseSignIsNegative (c : Cursor) : R (Option Bool × Cursor) :=
  match c.cur with
  | some b =>
    if b = 43 then .ok (some false, c.advance)
    else if b = 45 then .ok (some true, c.advance)
    else .ok (none, c)
  | none => fail (.syntax c.pos .unexpectedEnd)

/-- parse.rs:1127-1142: what follows the sign -/
def afterSign (cfg : Config) (c : Cursor) : Option Bool → R (Option Bool × Cursor)
  | none => .ok (none, c)
  | some neg =>
    match c.cur with
    | some b =>
      if cfg.allowSignDelimiter && cfg.innerDelimiter b then do
        let c ← c.tryConsumeDelimiter cfg.innerDelimiter
        return (some neg, c)
      else .ok (some neg, c)
    | none => fail (.syntax c.pos .signWithoutNumber)

/-- parse.rs:1122-1145: the value of `duration_repr.is_negative` -/
def parseNumberSign (cfg : Config) (c : Cursor) : R (Option Bool × Cursor) := do
  let (sign, c) ← parseSignIsNegative c
  afterSign cfg c sign

/-- parse.rs:1162-1181: what follows the decimal point -/
def fractionDigits (whole : Option Range) (c : Cursor) : R (Bool × Option Range × Cursor) :=
  match c.cur with
  | some b =>
    if isDigit b then do
      let (r, c) ← c.parseDigits
      return (true, some r, c)
    else if whole.isNone then do
      let pos ← liftP (subUsize c.pos 1)
      fail (.syntax pos .wholeOrFractionMustBePresent)
    else .ok (true, some ⟨c.pos, c.pos⟩, c)
  | none =>
    if whole.isNone then do
      let pos ← liftP (subUsize c.pos 1)
      fail (.syntax pos .wholeOrFractionMustBePresent)
    else .ok (false, some ⟨c.pos, c.pos⟩, c)

/-- parse.rs:1153-1190: whether to continue, the value of `duration_repr.fract` -/
def parseNumberFraction (whole : Option Range) (disableFraction : Bool) (c : Cursor) :
    R (Bool × Option Range × Cursor) :=
  match c.cur with
  | some b =>
    if b = 46 then
      if disableFraction then fail (.syntax c.pos .noFractionAllowed)
      else fractionDigits whole c.advance
    else .ok (true, none, c)
  | none => .ok (false, none, c)

/-- parse.rs:1201-1217: one more digit of the exponent; `none` is an overflow -/
def exponentStep (neg : Bool) (exponent : Int) (b : UInt8) : Option Int :=
  (checkedI16 (exponent * 10)).bind fun e =>
    checkedI16 (if neg then e - ((b.toNat : Int) - 48) else e + ((b.toNat : Int) - 48))

/-- the loop over the digits of the exponent, parse.rs:1198-1222. The first argument is fuel. -/
def exponentLoop (neg : Bool) : Nat → Int → Cursor → R (Int × Cursor)
  | fuel, exponent, c =>
    match c.cur with
    | none => .ok (exponent, c)
    | some b =>
      if isDigit b then
        match fuel with
        | 0 => panic .fuel
        | fuel + 1 =>
          match exponentStep neg exponent b with
          | some e => exponentLoop neg fuel e c.advance
          | none => fail (if neg then .negativeExponentOverflow else .positiveExponentOverflow)
      else .ok (exponent, c)

/-- parse.rs:1192-1237 -/
def parseExponent (c : Cursor) : R (Int × Cursor) := do
  let (sign, c) ← parseSignIsNegative c
  let (exponent, c') ← exponentLoop (sign.getD false) c.input.length 0 c
  let n ← liftP (subUsize c'.pos c.pos)
  if 0 < n then return (exponent, c')
  else if c'.cur.isNone then fail (.syntax c'.pos .expectedExponent)
  else fail (.syntax c'.pos .exponentWithoutDigit)

/-- parse.rs:1239-1258: whether to continue, the value of `duration_repr.exponent` -/
def parseNumberExponent (disableExponent : Bool) (c : Cursor) : R (Bool × Int × Cursor) :=
  match c.cur with
  | some b =>
    if b = 101 || b = 69 then
      if disableExponent then fail (.syntax c.pos .noExponentAllowed)
      else do
        let (e, c) ← parseExponent c.advance
        return (true, e, c)
    else .ok (true, 0, c)
  | none => .ok (false, 0, c)

/-- parse.rs:1260-1273 -/
def parseNumberDelimiter (delimiter : Option Delimiter) (c : Cursor) : R (Bool × Cursor) :=
  match c.cur with
  | none => .ok (false, c)
  | some b =>
    match delimiter with
    | none => .ok (true, c)
    | some d =>
      if d b then do
        let c ← c.tryConsumeDelimiter d
        return (true, c)
      else .ok (true, c)

/-- parse.rs:1431-1442: the time unit of a number in single mode -/
def unitOrError (c : Cursor) : Option Unit' → R (Bool × Option Unit' × Cursor)
  | some u => .ok (true, some u, c)
  | none => do
    let remainder ← c.getRemainderStr
    fail (.timeUnit c.pos (.invalidTimeUnit remainder))

/-- parse.rs:1429-1452 -/
def numberTimeUnitSingle (env : Env) (c : Cursor) : R (Bool × Option Unit' × Cursor) :=
  if !env.units.isEmpty then do
    let (u, c) ← parseTimeUnit .single env c
    unitOrError c u
  else do
    let remainder ← c.getRemainderStrUnchecked
    fail (.timeUnit c.pos (.noTimeUnitsAllowed remainder))

/-- parse.rs:1743-1750 -/
def numberTimeUnitMultiple (env : Env) (c : Cursor) : R (Bool × Option Unit' × Cursor) :=
  if !env.units.isEmpty then do
    let (u, c) ← parseTimeUnit .multiple env c
    return (true, u, c)
  else .ok (true, none, c)

/-- parse.rs:1423-1457 and parse.rs:1737-1756
`parse_number_time_unit`: whether to continue, and the unit found -/
def parseNumberTimeUnit (mode : Mode) (env : Env) (c : Cursor) : R (Bool × Option Unit' × Cursor) :=
  match c.cur with
  | none => .ok (false, none, c)
  | some _ =>
    match mode with
    | .single => numberTimeUnitSingle env c
    | .multiple => numberTimeUnitMultiple env c

/-! ## Template -/

/-- `duration_repr.unit = Some(unit); duration_repr.multiplier = multiplier`, parse.rs:1022-1023, 1030-1031,
1043-1044, 1432-1433, 1746-1747 -/
def withUnit (r : DurationRepr) : Option Unit' → DurationRepr
  | some (unit, multiplier) => { r with unit := some unit, multiplier := multiplier }
  | none => r

/-- parse.rs:1093-1099: time unit and end of a number -/
def parseUnitPart (mode : Mode) (env : Env) (r : DurationRepr) (c : Cursor) : R Output := do
  let (go, u, c) ← parseNumberTimeUnit mode env c
  if !go then return makeOutput mode r c
  else finalize mode env.cfg (withUnit r u) c

/-- parse.rs:1085-1099 -/
def parseDelimiterPart (mode : Mode) (env : Env) (r : DurationRepr) (c : Cursor) : R Output := do
  let (go, c) ← parseNumberDelimiter
    (if env.cfg.allowTimeUnitDelimiter then some env.cfg.innerDelimiter else none) c
  if !go then return makeOutput mode r c
  else parseUnitPart mode env r c

/-- parse.rs:1081-1099 -/
def parseExponentPart (mode : Mode) (env : Env) (r : DurationRepr) (c : Cursor) : R Output := do
  let (go, exponent, c) ← parseNumberExponent env.cfg.disableExponent c
  if !go then return makeOutput mode { r with exponent := exponent } c
  else parseDelimiterPart mode env { r with exponent := exponent } c

/-- parse.rs:1077-1099: what follows the whole number part -/
def parseAfterWhole (mode : Mode) (env : Env) (r : DurationRepr) (c : Cursor) : R Output := do
  let (go, fract, c) ← parseNumberFraction r.whole env.cfg.disableFraction c
  if !go then return makeOutput mode { r with fract := fract } c
  else parseExponentPart mode env { r with fract := fract } c

/-- parse.rs:1040-1059: the time unit after a numeral -/
def numeralUnit (mode : Mode) (env : Env) (r : DurationRepr) (c : Cursor) (id : Bytes)
    (numeral : Multiplier) : Option Unit' → R Output
  | some u => finalize mode env.cfg (withUnit { r with numeral := some numeral } (some u)) c
  | none =>
    if env.units.isEmpty then fail (.timeUnit c.pos (.numeralWithoutTimeUnitsDefined id))
    else fail (.timeUnit c.pos (.numeralWithoutTimeUnit id))

/-- parse.rs:1039-1064: after a numeral, or if there is nothing usable -/
def afterNumeral (mode : Mode) (env : Env) (r : DurationRepr) (c : Cursor) :
    Option (Bytes × Multiplier) → R Output
  | some (id, numeral) => do
    let (u, c) ← parseTimeUnit mode env c
    numeralUnit mode env r c id numeral u
  | none => do
    let remainder ← c.getRemainderStr
    fail (.invalidInput (.text remainder))

/-- parse.rs:1039-1064: a numeral followed by a time unit -/
def parseNumeralWord (mode : Mode) (env : Env) (r : DurationRepr) (c : Cursor) : R Output := do
  let (numeral, c) ← parseNumeral env c
  afterNumeral mode env r c numeral

/-- parse.rs:1028-1037; `start` is the cursor before the time unit -/
def afterUnitWord (mode : Mode) (env : Env) (r : DurationRepr) (start c : Cursor) :
    Option Unit' → R Output
  | some u => finalize mode env.cfg (withUnit r (some u)) c
  | none => parseNumeralWord mode env r (c.reset start.pos)

/-- parse.rs:1026-1038: a time unit without a number -/
def parseUnitWord (mode : Mode) (env : Env) (r : DurationRepr) (c : Cursor) : R Output :=
  if env.cfg.numberIsOptional then do
    let (u, c') ← parseTimeUnit mode env c
    afterUnitWord mode env r c c' u
  else parseNumeralWord mode env r c

/-- parse.rs:1021-1025 -/
def afterKeyword (mode : Mode) (env : Env) (r : DurationRepr) (c : Cursor) : Option Unit' → R Output
  | some u => finalize mode env.cfg (withUnit r (some u)) c
  | none => parseUnitWord mode env r c

/-- parse.rs:1020-1065: keyword, time unit or numeral -/
def parseWord (mode : Mode) (env : Env) (r : DurationRepr) (c : Cursor) : R Output := do
  let (k, c) ← parseKeyword mode env c
  afterKeyword mode env r c k

/-- parse.rs:1010 and the code after the match, parse.rs:1077-1099 -/
def parseWhole (mode : Mode) (env : Env) (r : DurationRepr) (c : Cursor) : R Output := do
  let (w, c) ← c.parseDigitsStripZeros
  parseAfterWhole mode env { r with whole := some w } c

/-- parse.rs:1008-1099: what follows the sign -/
def parseBody (mode : Mode) (env : Env) (r : DurationRepr) (c : Cursor) : R Output :=
  match c.cur with
  | none => fail (.syntax c.pos .unexpectedEnd)
  | some b =>
    if isDigit b then parseWhole mode env r c
    else if b = 46 then parseAfterWhole mode env r c
    else if !env.cfg.disableInfinity && c.nextIs (b! "inf") then
      parseInfinityRemainder mode env.cfg r (c.advanceBy 3)
    else parseWord mode env r c

/-- parse.rs:988-1100 `ReprParserTemplate::parse` -/
def templateParse (mode : Mode) (env : Env) (c : Cursor) : R Output :=
  match c.cur with
  | none => fail .empty
  | some _ => do
    let (neg, c) ← parseNumberSign env.cfg c
    parseBody mode env { defaultUnit := env.cfg.defaultUnit, input := c.input, isNegative := neg } c

/-! ## Parser -/

/-- `!self.config.allow_negative && duration.is_negative()`, parse.rs:124 and 152 -/
def rejectNegative (cfg : Config) (d : Duration) : Bool := !cfg.allowNegative && d.isNegative

/-- parse.rs:124-132: the accumulation of parsed durations -/
def accumulate (duration parsed : Duration) : R Duration :=
  if parsed.isZero then .ok duration
  else if duration.isZero then .ok parsed
  else liftP (duration.saturatingAdd parsed)

/-- `duration_repr.parse()?` followed by the test for negative durations, parse.rs:123-125 and 151-156 -/
def parseRepr (cfg : Config) (r : DurationRepr) : R Duration := do
  let parsed ← liftP r.parse
  if rejectNegative cfg parsed then fail .negativeNumber else return parsed

/-- the loop of parse.rs:110-138. The first argument is fuel. -/
def parseMultipleLoop (env : Env) : Nat → Duration → Cursor → R Duration
  | 0, _, _ => panic .fuel
  | fuel + 1, duration, c => do
    let (repr, next) ← templateParse .multiple env c
    let parsed ← parseRepr env.cfg repr
    let duration ← accumulate duration parsed
    match next with
    | some c => parseMultipleLoop env fuel duration c
    | none => return duration

/-- parse.rs:110-138 -/
def parseMultiple (env : Env) (source : Bytes) : R Duration :=
  parseMultipleLoop env (source.length + 1) Duration.ZERO (Cursor.new source)

/-- parse.rs:141-159 -/
def parseSingle (env : Env) (source : Bytes) : R Duration := do
  let (repr, _) ← templateParse .single env (Cursor.new source)
  parseRepr env.cfg repr

/-- parse.rs:229-233, with the arguments of the template in `env` -/
def parseWith (env : Env) (source : Bytes) : R Duration :=
  if env.cfg.allowMultiple then parseMultiple env source else parseSingle env source

/-- parse.rs:222-234 `Parser::parse` -/
def parse (cfg : Config) (units : TimeUnitsLike) (keywords : Option TimeUnitsLike)
    (numerals : Option NumbersLike) (source : Bytes) : R Duration :=
  parseWith { cfg := cfg, units := units, keywords := keywords, numerals := numerals } source

end Fundu
