import Verif.Model.Parse
import Verif.Model.Gnu
/-!
# The parser with a count of the steps it takes

The functions of `Model/Bytes.lean` and `Model/Parse.lean` once more, line by line, in a monad which counts steps besides
computing the result. C103 proves that the results are those of the model. What is counted:

* one step for each byte a loop looks at: words, delimiters, digits, the exponent, `inity`;
* eight steps for each test of eight bytes at once, whether they are digits or not;
* the length of the word and one step for each comparison with a word: `inf`, `ago`, each conjunction which is tried;
* the length of the word and one step for each lookup of a time unit, keyword or numeral. This is what it costs to hash or compare the word
  once; the size of the table is not taken into account;
* the length of what remains and one step for errors which quote the rest of the input, which is validated and copied;
* one step for each digit which is converted to a number, eight steps for each eight digits which are converted at once;
* one step for each duration.

All other operations take constant time in the source: the slices are not copied, an exponent is applied by moving a boundary
between digits and by one product with a power from a table, and the numbers have at most 128 bits.
-/
namespace Fundu.Cost
open Fundu

/-- a result and the number of steps it took to compute it -/
structure T (α : Type) where
  cost : Nat
  res : R α

namespace T
/-- a value without any step -/
def ok {α} (a : α) : T α := ⟨0, .ok a⟩

/-- the steps of both parts, only those of the first one if it fails -/
def bind {α β} (x : T α) (f : α → T β) : T β :=
  match x.res with
  | .ok a => ⟨x.cost + (f a).cost, (f a).res⟩
  | .error e => ⟨x.cost, .error e⟩

instance : Monad T where
  pure := ok
  bind := bind
end T

/-- `n` more steps -/
def charge {α} (n : Nat) (x : T α) : T α := ⟨n + x.cost, x.res⟩

/-- an operation which takes constant time -/
def lift {α} (x : R α) : T α := ⟨0, x⟩
/-- `Err(e)` -/
def fail {α} (e : ParseError) : T α := lift (Fundu.fail e)
/-- a panic -/
def panic {α} (p : Panic) : T α := lift (Fundu.panic p)

/-! ## The reader -/

/-- parse.rs:692-697 and 720-725 -/
def skipTo (d : Delimiter) : Nat → Cursor → T Cursor
  | 0, c => charge 1 <|
    match c.cur with
    | none => .ok c
    | some b => if d b then .ok c else panic .fuel
  | n + 1, c => charge 1 <|
    match c.cur with
    | none => .ok c
    | some b => if d b then .ok c else skipTo d n c.advance

/-- parse.rs:687-699 -/
def advanceTo (d : Delimiter) (c : Cursor) : T (Bytes × Cursor) := do
  let c' ← skipTo d c.input.length c
  return (← lift (sliceR c'.input c.pos c'.pos), c')

/-- parse.rs:701-731 -/
def bufferedAdvanceTo (d : Delimiter) (c : Cursor) : T (Bytes × Cursor) :=
  charge 1 <|
  match c.buffered d with
  | some buffer => .ok (buffer, c.advanceBy buffer.length)
  | none => do
    let c' ← skipTo d c.input.length c
    let buffer ← lift (sliceR c'.input c.pos c'.pos)
    return (buffer, { c' with buffer := some (c.pos, buffer, c'.cur) })

/-- parse.rs:749-752 -/
def getRemainderStr (c : Cursor) : T Bytes := charge (c.input.length - c.pos + 1) (lift c.getRemainderStr)

/-- parse.rs:834-852 -/
def parse8 (c : Cursor) : T (Option (Nat × Cursor)) := charge 8 (lift c.parse8)

/-- parse.rs:789-801 -/
def stripBlocks : Nat → Nat → Bool → Cursor → T (Nat × Bool × Cursor)
  | fuel, start, strip, c => do
    match ← parse8 c with
    | none => return (start, strip, c)
    | some (eight, c') =>
      match fuel with
      | 0 => panic .fuel
      | fuel + 1 =>
        if strip then
          if eight = 0x3030303030303030 then stripBlocks fuel (start + 8) true c'
          else do
            let d ← lift (liftP (subUsize eight 0x3030303030303030))
            stripBlocks fuel (start + Cursor.trailingZeros 64 d / 8) false c'
        else stripBlocks fuel start false c'

/-- parse.rs:803-817 -/
def stripEach : Nat → Nat → Bool → Cursor → T (Nat × Cursor)
  | fuel, start, strip, c => charge 1 <|
    match c.cur with
    | none => .ok (start, c)
    | some b =>
      if isDigit b then
        match fuel with
        | 0 => panic .fuel
        | fuel + 1 =>
          if strip && decide (b = 48) then stripEach fuel (start + 1) true c.advance
          else stripEach fuel start false c.advance
      else .ok (start, c)

/-- parse.rs:782-820 -/
def parseDigitsStripZeros (c : Cursor) : T (Range × Cursor) := do
  lift c.assertDigit
  let (start, strip, c) ← stripBlocks c.input.length c.pos true c
  let (start, c) ← stripEach c.input.length start strip c
  return (⟨start, c.pos⟩, c)

/-- parse.rs:826 -/
def skipBlocks : Nat → Cursor → T Cursor
  | fuel, c => do
    match ← parse8 c with
    | none => return c
    | some (_, c') =>
      match fuel with
      | 0 => panic .fuel
      | fuel + 1 => skipBlocks fuel c'

/-- parse.rs:827 -/
def skipDigits : Nat → Cursor → T Cursor
  | fuel, c => charge 1 <|
    match c.parseDigit with
    | none => .ok c
    | some c' =>
      match fuel with
      | 0 => panic .fuel
      | fuel + 1 => skipDigits fuel c'

/-- parse.rs:822-830 -/
def parseDigits (c : Cursor) : T (Range × Cursor) := do
  lift c.assertDigit
  let c' ← skipBlocks c.input.length c
  let c' ← skipDigits c.input.length c'
  return (⟨c.pos, c'.pos⟩, c')

/-- parse.rs:866-875 -/
def checkEnd (c : Cursor) : T Unit :=
  match c.cur with
  | none => .ok ()
  | some _ => do
    let remainder ← getRemainderStr c
    fail (.syntax c.pos (.expectedEndOfInput remainder))

/-- parse.rs:877-903 -/
def tryConsumeDelimiter (d : Delimiter) (c : Cursor) : T Cursor := do
  lift (c.assertDelimiter d)
  if c.pos = 0 then fail (.syntax 0 .delimiterAtStart)
  else
    let c' ← skipTo (fun b => !d b) c.input.length c.advance
    match c'.cur with
    | some _ => return c'
    | none => fail (.syntax c.pos .delimiterAtEnd)

/-! ## The parser -/

/-- parse.rs:1499-1520: what follows a conjunction -/
def afterConjunction (d : Delimiter) (start : Nat) (word : Bytes) (c : Cursor) : T Cursor :=
  match c.cur with
  | some b =>
    if d b then tryConsumeDelimiter d c
    else if isNextDuration b then .ok c
    else fail (.syntax c.pos (.conjunctionNotSeparated b))
  | none => fail (.syntax start (.conjunctionAtEnd word))

/-- parse.rs:1495-1523: the loop over the conjunctions in `try_consume_connection` -/
def consumeConjunction (d : Delimiter) (start : Nat) (c : Cursor) : List Bytes → T Cursor
  | [] => .ok c
  | word :: words =>
    charge (word.length + 1) <| if c.nextIs word then afterConjunction d start word (c.advanceBy word.length)
    else consumeConjunction d start c words

/-- parse.rs:1485-1525 -/
def tryConsumeConnection (d : Delimiter) (conjunctions : List Bytes) (c : Cursor) : T Cursor := do
  lift (Cursor.assertDelimiter d c)
  let c ← tryConsumeDelimiter d c
  consumeConjunction d c.pos c conjunctions

/-- `try_consume_connection(config.outer_delimiter, config.conjunctions.unwrap_or_default())`,
parse.rs:1551-1554, 1596-1599, 1642-1645, 1725-1728, 1766-1769 -/
def tryConnection (cfg : Config) (c : Cursor) : T Cursor :=
  tryConsumeConnection cfg.outerDelimiter (cfg.conjunctions.getD []) c

/-- parse.rs:1764-1773 -/
def finalizeMultiple (cfg : Config) (r : DurationRepr) (c : Cursor) : T Output :=
  match c.cur with
  | some b =>
    if cfg.outerDelimiter b then do
      let c ← tryConnection cfg c
      return (r, some c)
    else .ok (r, some c)
  | none => .ok (r, none)

/-- parse.rs:1460-1466 and parse.rs:1759-1774 `finalize` -/
def finalize (mode : Mode) (cfg : Config) (r : DurationRepr) (c : Cursor) : T Output :=
  match mode with
  | .single => do
    checkEnd c
    return (r, none)
  | .multiple => finalizeMultiple cfg r c

/-! ## Infinity -/

/-- the loop over the bytes of `inity` in single mode, parse.rs:1312-1333 -/
def inityLoop (c : Cursor) : Bytes → T Cursor
  | [] => .ok c
  | b :: bs => charge 1 <|
    match c.cur with
    | some current =>
      if toLower current = toLower b then inityLoop c.advance bs
      else fail (.syntax c.pos (.infinityInvalidCharacter current))
    | none => fail (.syntax c.pos .infinityPrematureEnd)

/-- the loop over the bytes of `inity` in multiple mode, parse.rs:1566-1591 -/
def inityLoopMultiple (start : Nat) (c : Cursor) : Bytes → T Cursor
  | [] => .ok c
  | b :: bs => charge 1 <|
    match c.cur with
    | some current =>
      if toLower current = toLower b then inityLoopMultiple start c.advance bs
      else fail (.syntax c.pos (.infinityInvalidCharacter current))
    | none => do
      let pos ← lift (liftP (subUsize start 3))
      let text ← lift (c.getCurrentStrUnwrap start)
      fail (.syntax pos (.infinityInvalidIdentifier text))

/-- parse.rs:1594-1610: after `infinity` in multiple mode -/
def afterInfinity (cfg : Config) (r : DurationRepr) (c : Cursor) : T Output :=
  match c.cur with
  | some b =>
    if cfg.outerDelimiter b then do
      let c ← tryConnection cfg c
      return (r, some c)
    else fail (.syntax c.pos (.infinityExpectedDelimiter b))
  | none => .ok (r, none)

/-- parse.rs:1302-1337 `parse_infinity_remainder` in single mode; `r.isInfinite` is already set -/
def infinitySingle (r : DurationRepr) (c : Cursor) : T Output :=
  match c.cur with
  | none => .ok (r, none)
  | some _ => do
    let c ← inityLoop c (b! "inity")
    checkEnd c
    return (r, none)

/-- parse.rs:1542-1611 `parse_infinity_remainder` in multiple mode; `r.isInfinite` is already set -/
def infinityMultiple (cfg : Config) (r : DurationRepr) (c : Cursor) : T Output :=
  match c.cur with
  | none => .ok (r, none)
  | some b =>
    if cfg.outerDelimiter b then do
      let c ← tryConnection cfg c
      return (r, some c)
    else do
      let c ← inityLoopMultiple c.pos c (b! "inity")
      afterInfinity cfg r c

/-- parse.rs:1302-1337 and parse.rs:1542-1611 `parse_infinity_remainder` -/
def parseInfinityRemainder (mode : Mode) (cfg : Config) (r : DurationRepr) (c : Cursor) : T Output :=
  match mode with
  | .single => infinitySingle { r with isInfinite := true } c
  | .multiple => infinityMultiple cfg { r with isInfinite := true } c

/-! ## Words -/

/-- `if let Some(byte) = current_byte { if outer_delimiter(byte) { try_consume_connection(..)? } }`,
parse.rs:1640-1647 and 1723-1731 -/
def consumeConnectionIfAny (cfg : Config) (c : Cursor) : T Cursor :=
  match c.cur with
  | some b => if cfg.outerDelimiter b then tryConnection cfg c else .ok c
  | none => .ok c

/-- parse.rs:1634-1650: what follows a keyword in multiple mode; `start` is the cursor before the word -/
def keywordFound (cfg : Config) (start c : Cursor) : Option Unit' → T (Option Unit' × Cursor)
  | none => .ok (none, c.reset start.pos)
  | some u => do
    let c ← consumeConnectionIfAny cfg c
    return (some u, c)

/-- parse.rs:1614-1654 `parse_keyword` in multiple mode, with keywords -/
def parseKeywordMultiple (env : Env) (keywords : TimeUnitsLike) (c : Cursor) :
    T (Option Unit' × Cursor) := do
  let (buffer, c') ← bufferedAdvanceTo (wordEnd env.cfg) c
  if buffer.isEmpty then return (none, c')
  else
    let string ← lift (utf8Unchecked buffer)
    charge (string.length + 1) <| keywordFound env.cfg c c' (keywords.get string)

/-- the remainder of the input is looked up, parse.rs:1347-1354 and parse.rs:1412-1418 -/
def lookupRemainder (units : TimeUnitsLike) (c : Cursor) : T (Option Unit' × Cursor) := do
  let string ← lift c.getRemainderStrUnchecked
  charge (string.length + 1) <| match units.get string with
  | none => return (none, c)
  | some u => return (some u, c.finish)

/-- parse.rs:1340-1358 and parse.rs:1614-1654 `parse_keyword` -/
def parseKeyword (mode : Mode) (env : Env) (c : Cursor) : T (Option Unit' × Cursor) :=
  match env.keywords with
  | none => .ok (none, c)
  | some keywords =>
    match mode with
    | .single => lookupRemainder keywords c
    | .multiple => parseKeywordMultiple env keywords c

/-- `debug_assert!(self.bytes.current_byte.is_some())`, parse.rs:1366-1369 and 1663-1666 -/
def assertSome (c : Cursor) : T Unit :=
  match c.cur with
  | some _ => .ok ()
  | none => panic .assert

/-- parse.rs:1394-1408: `ago` after a time unit in single mode; `none` if there is something else;
`start` is the cursor before the word -/
def agoSingle (cfg : Config) (start : Cursor) (u : Unit') (c : Cursor) : T (Option Unit' × Cursor) :=
  match c.cur with
  | some _ => do
    let c ← tryConsumeDelimiter cfg.innerDelimiter c
    charge 4 <| if c.nextIs (b! "ago") then return (some (u.1, u.2.saturatingNeg), c.advanceBy 3)
      else return (none, c.reset start.pos)
  | none => .ok (some u, c)

/-- parse.rs:1383-1408 -/
def unitFoundSingle (cfg : Config) (start c : Cursor) : Option Unit' → T (Option Unit' × Cursor)
  | none => .ok (none, c.reset start.pos)
  | some u => agoSingle cfg start u c

/-- parse.rs:1371-1408: a time unit in single mode with `allow_ago` -/
def parseTimeUnitAgo (env : Env) (c : Cursor) : T (Option Unit' × Cursor) := do
  let (buffer, c') ← advanceTo env.cfg.innerDelimiter c
  let string ← lift (utf8Unchecked buffer)
  if string.isEmpty then return (none, c')
  else charge (string.length + 1) <| unitFoundSingle env.cfg c c' (env.units.get string)

/-- parse.rs:1360-1420 `parse_time_unit` in single mode -/
def parseTimeUnitSingle (env : Env) (c : Cursor) : T (Option Unit' × Cursor) := do
  assertSome c
  if env.cfg.allowAgo then parseTimeUnitAgo env c
  else lookupRemainder env.units c

/-- parse.rs:1696-1721: `ago` after a time unit in multiple mode -/
def agoMultiple (cfg : Config) (u : Unit') (c : Cursor) : T (Unit' × Cursor) :=
  match c.cur with
  | some b =>
    if cfg.allowAgo && cfg.innerDelimiter b then do
      let c' ← tryConsumeDelimiter cfg.innerDelimiter c
      charge 4 <| if c'.nextIs (b! "ago") then return afterAgo cfg c u (c'.advanceBy 3)
        else return (u, c'.reset c.pos)
    else .ok (u, c)
  | none => .ok (u, c)

/-- parse.rs:1688-1733 -/
def unitFoundMultiple (cfg : Config) (start c : Cursor) : Option Unit' → T (Option Unit' × Cursor)
  | none => .ok (none, c.reset start.pos)
  | some u => do
    let (u, c) ← agoMultiple cfg u c
    let c ← consumeConnectionIfAny cfg c
    return (some u, c)

/-- parse.rs:1657-1734 `parse_time_unit` in multiple mode -/
def parseTimeUnitMultiple (env : Env) (c : Cursor) : T (Option Unit' × Cursor) := do
  assertSome c
  let (buffer, c') ← bufferedAdvanceTo (unitEnd env.cfg) c
  if buffer.isEmpty then return (none, c')
  else
    let string ← lift (utf8Unchecked buffer)
    charge (string.length + 1) <| unitFoundMultiple env.cfg c c' (env.units.get string)

/-- `parse_time_unit` of the two implementations, parse.rs:1360-1420, 1657-1734 -/
def parseTimeUnit (mode : Mode) (env : Env) (c : Cursor) : T (Option Unit' × Cursor) :=
  match mode with
  | .single => parseTimeUnitSingle env c
  | .multiple => parseTimeUnitMultiple env c

/-- parse.rs:968-983: what follows a numeral; `start` is the cursor before the word -/
def numeralFound (cfg : Config) (start c : Cursor) (string : Bytes) :
    Option Multiplier → T (Option (Bytes × Multiplier) × Cursor)
  | none => .ok (none, c.reset start.pos)
  | some m =>
    match c.cur with
    | some b =>
      if cfg.innerDelimiter b then do
        let c ← tryConsumeDelimiter cfg.innerDelimiter c
        return (some (string, m), c)
      else .ok (none, c.reset start.pos)
    | none => .ok (none, c.reset start.pos)

/-- parse.rs:951-986 -/
def parseNumeral (env : Env) (c : Cursor) : T (Option (Bytes × Multiplier) × Cursor) :=
  match env.numerals with
  | none => .ok (none, c)
  | some numerals => do
    let (buffer, c') ← bufferedAdvanceTo (env.cfg.innerDelimiter) c
    if buffer.isEmpty then return (none, c')
    else
      let string ← lift (utf8Unchecked buffer)
      charge (string.length + 1) <| numeralFound env.cfg c c' string (numerals string)

/-! ## Numbers -/

/-- parse.rs:1103-1120 -/
def parseSignIsNegative (c : Cursor) : T (Option Bool × Cursor) :=
  match c.cur with
  | some b =>
    if b = 43 then .ok (some false, c.advance)
    else if b = 45 then .ok (some true, c.advance)
    else .ok (none, c)
  | none => fail (.syntax c.pos .unexpectedEnd)

/-- parse.rs:1127-1142: what follows the sign -/
def afterSign (cfg : Config) (c : Cursor) : Option Bool → T (Option Bool × Cursor)
  | none => .ok (none, c)
  | some neg =>
    match c.cur with
    | some b =>
      if cfg.allowSignDelimiter && cfg.innerDelimiter b then do
        let c ← tryConsumeDelimiter cfg.innerDelimiter c
        return (some neg, c)
      else .ok (some neg, c)
    | none => fail (.syntax c.pos .signWithoutNumber)

/-- parse.rs:1122-1145: the value of `duration_repr.is_negative` -/
def parseNumberSign (cfg : Config) (c : Cursor) : T (Option Bool × Cursor) := do
  let (sign, c) ← parseSignIsNegative c
  afterSign cfg c sign

/-- parse.rs:1162-1181: what follows the decimal point -/
def fractionDigits (whole : Option Range) (c : Cursor) : T (Bool × Option Range × Cursor) :=
  match c.cur with
  | some b =>
    if isDigit b then do
      let (r, c) ← parseDigits c
      return (true, some r, c)
    else if whole.isNone then do
      let pos ← lift (liftP (subUsize c.pos 1))
      fail (.syntax pos .wholeOrFractionMustBePresent)
    else .ok (true, some ⟨c.pos, c.pos⟩, c)
  | none =>
    if whole.isNone then do
      let pos ← lift (liftP (subUsize c.pos 1))
      fail (.syntax pos .wholeOrFractionMustBePresent)
    else .ok (false, some ⟨c.pos, c.pos⟩, c)

/-- parse.rs:1153-1190: whether to continue, the value of `duration_repr.fract` -/
def parseNumberFraction (whole : Option Range) (disableFraction : Bool) (c : Cursor) :
    T (Bool × Option Range × Cursor) :=
  match c.cur with
  | some b =>
    if b = 46 then
      if disableFraction then fail (.syntax c.pos .noFractionAllowed)
      else fractionDigits whole c.advance
    else .ok (true, none, c)
  | none => .ok (false, none, c)

/-- the loop over the digits of the exponent, parse.rs:1198-1222. The first argument is fuel. -/
def exponentLoop (neg : Bool) : Nat → Int → Cursor → T (Int × Cursor)
  | fuel, exponent, c => charge 1 <|
    match c.cur with
    | none => .ok (exponent, c)
    | some b =>
      if isDigit b then
        match fuel with
        | 0 => panic .fuel
        | fuel + 1 =>
          match exponentStep neg exponent b with
          | some e => exponentLoop neg fuel e c.advance
          | none => fail (if neg then .negativeExponentOverflow else .positiveExponentOverflow)
      else .ok (exponent, c)

/-- parse.rs:1192-1237 -/
def parseExponent (c : Cursor) : T (Int × Cursor) := do
  let (sign, c) ← parseSignIsNegative c
  let (exponent, c') ← exponentLoop (sign.getD false) c.input.length 0 c
  let n ← lift (liftP (subUsize c'.pos c.pos))
  if 0 < n then return (exponent, c')
  else if c'.cur.isNone then fail (.syntax c'.pos .expectedExponent)
  else fail (.syntax c'.pos .exponentWithoutDigit)

/-- parse.rs:1239-1258: whether to continue, the value of `duration_repr.exponent` -/
def parseNumberExponent (disableExponent : Bool) (c : Cursor) : T (Bool × Int × Cursor) :=
  match c.cur with
  | some b =>
    if b = 101 || b = 69 then
      if disableExponent then fail (.syntax c.pos .noExponentAllowed)
      else do
        let (e, c) ← parseExponent c.advance
        return (true, e, c)
    else .ok (true, 0, c)
  | none => .ok (false, 0, c)

/-- parse.rs:1260-1273 -/
def parseNumberDelimiter (delimiter : Option Delimiter) (c : Cursor) : T (Bool × Cursor) :=
  match c.cur with
  | none => .ok (false, c)
  | some b =>
    match delimiter with
    | none => .ok (true, c)
    | some d =>
      if d b then do
        let c ← tryConsumeDelimiter d c
        return (true, c)
      else .ok (true, c)

/-- parse.rs:1431-1442: the time unit of a number in single mode -/
def unitOrError (c : Cursor) : Option Unit' → T (Bool × Option Unit' × Cursor)
  | some u => .ok (true, some u, c)
  | none => do
    let remainder ← getRemainderStr c
    fail (.timeUnit c.pos (.invalidTimeUnit remainder))

/-- parse.rs:1429-1452 -/
def numberTimeUnitSingle (env : Env) (c : Cursor) : T (Bool × Option Unit' × Cursor) :=
  if !env.units.isEmpty then do
    let (u, c) ← parseTimeUnit .single env c
    unitOrError c u
  else do
    let remainder ← charge (c.input.length - c.pos + 1) (lift c.getRemainderStrUnchecked)
    fail (.timeUnit c.pos (.noTimeUnitsAllowed remainder))

/-- parse.rs:1743-1750 -/
def numberTimeUnitMultiple (env : Env) (c : Cursor) : T (Bool × Option Unit' × Cursor) :=
  if !env.units.isEmpty then do
    let (u, c) ← parseTimeUnit .multiple env c
    return (true, u, c)
  else .ok (true, none, c)

/-- parse.rs:1423-1457 and parse.rs:1737-1756
`parse_number_time_unit`: whether to continue, and the unit found -/
def parseNumberTimeUnit (mode : Mode) (env : Env) (c : Cursor) : T (Bool × Option Unit' × Cursor) :=
  match c.cur with
  | none => .ok (false, none, c)
  | some _ =>
    match mode with
    | .single => numberTimeUnitSingle env c
    | .multiple => numberTimeUnitMultiple env c

/-! ## Template -/

/-- parse.rs:1093-1099: time unit and end of a number -/
def parseUnitPart (mode : Mode) (env : Env) (r : DurationRepr) (c : Cursor) : T Output := do
  let (go, u, c) ← parseNumberTimeUnit mode env c
  if !go then return makeOutput mode r c
  else finalize mode env.cfg (withUnit r u) c

/-- parse.rs:1085-1099 -/
def parseDelimiterPart (mode : Mode) (env : Env) (r : DurationRepr) (c : Cursor) : T Output := do
  let (go, c) ← parseNumberDelimiter
    (if env.cfg.allowTimeUnitDelimiter then some env.cfg.innerDelimiter else none) c
  if !go then return makeOutput mode r c
  else parseUnitPart mode env r c

/-- parse.rs:1081-1099 -/
def parseExponentPart (mode : Mode) (env : Env) (r : DurationRepr) (c : Cursor) : T Output := do
  let (go, exponent, c) ← parseNumberExponent env.cfg.disableExponent c
  if !go then return makeOutput mode { r with exponent := exponent } c
  else parseDelimiterPart mode env { r with exponent := exponent } c

/-- parse.rs:1077-1099: what follows the whole number part -/
def parseAfterWhole (mode : Mode) (env : Env) (r : DurationRepr) (c : Cursor) : T Output := do
  let (go, fract, c) ← parseNumberFraction r.whole env.cfg.disableFraction c
  if !go then return makeOutput mode { r with fract := fract } c
  else parseExponentPart mode env { r with fract := fract } c

/-- parse.rs:1040-1059: the time unit after a numeral -/
def numeralUnit (mode : Mode) (env : Env) (r : DurationRepr) (c : Cursor) (id : Bytes)
    (numeral : Multiplier) : Option Unit' → T Output
  | some u => finalize mode env.cfg (withUnit { r with numeral := some numeral } (some u)) c
  | none =>
    if env.units.isEmpty then fail (.timeUnit c.pos (.numeralWithoutTimeUnitsDefined id))
    else fail (.timeUnit c.pos (.numeralWithoutTimeUnit id))

/-- parse.rs:1039-1064: after a numeral, or if there is nothing usable -/
def afterNumeral (mode : Mode) (env : Env) (r : DurationRepr) (c : Cursor) :
    Option (Bytes × Multiplier) → T Output
  | some (id, numeral) => do
    let (u, c) ← parseTimeUnit mode env c
    numeralUnit mode env r c id numeral u
  | none => do
    let remainder ← getRemainderStr c
    fail (.invalidInput (.text remainder))

/-- parse.rs:1039-1064: a numeral followed by a time unit -/
def parseNumeralWord (mode : Mode) (env : Env) (r : DurationRepr) (c : Cursor) : T Output := do
  let (numeral, c) ← parseNumeral env c
  afterNumeral mode env r c numeral

/-- parse.rs:1028-1037; `start` is the cursor before the time unit -/
def afterUnitWord (mode : Mode) (env : Env) (r : DurationRepr) (start c : Cursor) :
    Option Unit' → T Output
  | some u => finalize mode env.cfg (withUnit r (some u)) c
  | none => parseNumeralWord mode env r (c.reset start.pos)

/-- parse.rs:1026-1038: a time unit without a number -/
def parseUnitWord (mode : Mode) (env : Env) (r : DurationRepr) (c : Cursor) : T Output :=
  if env.cfg.numberIsOptional then do
    let (u, c') ← parseTimeUnit mode env c
    afterUnitWord mode env r c c' u
  else parseNumeralWord mode env r c

/-- parse.rs:1021-1025 -/
def afterKeyword (mode : Mode) (env : Env) (r : DurationRepr) (c : Cursor) : Option Unit' → T Output
  | some u => finalize mode env.cfg (withUnit r (some u)) c
  | none => parseUnitWord mode env r c

/-- parse.rs:1020-1065: keyword, time unit or numeral -/
def parseWord (mode : Mode) (env : Env) (r : DurationRepr) (c : Cursor) : T Output := do
  let (k, c) ← parseKeyword mode env c
  afterKeyword mode env r c k

/-- parse.rs:1010 and the code after the match, parse.rs:1077-1099 -/
def parseWhole (mode : Mode) (env : Env) (r : DurationRepr) (c : Cursor) : T Output := do
  let (w, c) ← parseDigitsStripZeros c
  parseAfterWhole mode env { r with whole := some w } c

/-- parse.rs:1008-1099: what follows the sign -/
def parseBody (mode : Mode) (env : Env) (r : DurationRepr) (c : Cursor) : T Output :=
  match c.cur with
  | none => fail (.syntax c.pos .unexpectedEnd)
  | some b =>
    if isDigit b then parseWhole mode env r c
    else if b = 46 then parseAfterWhole mode env r c
    else charge 4 <| if !env.cfg.disableInfinity && c.nextIs (b! "inf") then
      parseInfinityRemainder mode env.cfg r (c.advanceBy 3)
    else parseWord mode env r c

/-- parse.rs:988-1100 `ReprParserTemplate::parse` -/
def templateParse (mode : Mode) (env : Env) (c : Cursor) : T Output :=
  charge 1 <| match c.cur with
  | none => fail .empty
  | some _ => do
    let (neg, c) ← parseNumberSign env.cfg c
    parseBody mode env { defaultUnit := env.cfg.defaultUnit, input := c.input, isNegative := neg } c

/-! ## The conversion of the digits -/

/-- parse.rs:274-285: eight steps for each chunk -/
def Whole.parseChunks (seconds : Nat) : List Bytes → T (Option Nat)
  | [] => .ok (some seconds)
  | c :: cs => charge 8 <|
    match checkedU64 (100000000 * seconds) with
    | none => .ok none
    | some s => do
      let eight ← lift (liftP (parse8Digits c))
      match checkedU64 (s + eight) with
      | none => return none
      | some s => parseChunks s cs

/-- parse.rs:286-296 and 298-308: a step for each digit -/
def Whole.parseEach (seconds : Nat) : Bytes → T (Option Nat)
  | [] => .ok (some seconds)
  | c :: cs => charge 1 <|
    match checkedU64 (seconds * 10) with
    | none => .ok none
    | some s => do
      let digit ← lift (liftP (digitValue c))
      match checkedU64 (s + digit) with
      | none => return none
      | some s => parseEach s cs

/-- parse.rs:271-311 -/
def Whole.parseSlice (seconds : Nat) (digits : Bytes) : T (Option Nat) :=
  if 8 ≤ digits.length then do
    let o ← Whole.parseChunks seconds (chunksExact8 digits).1
    match o with
    | none => return none
    | some seconds => Whole.parseEach seconds (chunksExact8 digits).2
  else
    Whole.parseEach seconds digits

/-- parse.rs:319-320 -/
def Whole.parseAppend (s : Nat) : Option Bytes → T (Option Nat)
  | none => .ok (some s)
  | some a => Whole.parseSlice s a

/-- parse.rs:325-330: the zeros of the exponent are one product with a power of a table -/
def Whole.appendZeros (seconds : Nat) : Option Nat → Option Nat
  | some numZeros =>
    if 0 < numZeros then
      match POW10[numZeros]? with
      | none => none
      | some pow => checkedU64 (seconds * pow)
    else some seconds
  | none => some seconds

/-- parse.rs:313-334 -/
def Whole.parse (digits : Bytes) (append : Option Bytes) (zeros : Option Nat) : T (Option Nat) :=
  if digits.isEmpty && noneOrEmpty append then .ok (some 0)
  else do
    let o ← Whole.parseSlice 0 digits
    match o with
    | none => return none
    | some s => do
      let o ← Whole.parseAppend s append
      match o with
      | none => return none
      | some seconds => if seconds = 0 then return some 0 else return Whole.appendZeros seconds zeros

/-- parse.rs:357-360 -/
def Fract.parseChunks (attos : Nat) : List Bytes → T Nat
  | [] => .ok attos
  | c :: cs => charge 8 <| do
    let m ← lift (liftP (arithU64 (100000000 * attos : Nat)))
    let eight ← lift (liftP (parse8Digits c))
    let a ← lift (liftP (arithU64 (m + eight : Nat)))
    parseChunks a cs

/-- parse.rs:361-363 and 365-367 -/
def Fract.parseEach (attos : Nat) : Bytes → T Nat
  | [] => .ok attos
  | c :: cs => charge 1 <| do
    let m ← lift (liftP (arithU64 (attos * 10 : Nat)))
    let digit ← lift (liftP (digitValue c))
    let a ← lift (liftP (arithU64 (m + digit : Nat)))
    parseEach a cs

/-- parse.rs:355-368: the digits which are used -/
def Fract.parseUsed (attos : Nat) (digits : Bytes) : T Nat :=
  if 8 ≤ digits.length then do
    let attos ← Fract.parseChunks attos (chunksExact8 digits).1
    Fract.parseEach attos (chunksExact8 digits).2
  else Fract.parseEach attos digits

/-- parse.rs:353-370 -/
def Fract.parseSlice (attos maxToParse : Nat) (digits : Bytes) : T (Nat × Nat) := do
  let used ← lift (liftP (slice digits 0 (min digits.length maxToParse)))
  let attos ← Fract.parseUsed attos used
  let remainder ← lift (liftP (subUsize maxToParse (min digits.length maxToParse)))
  return (attos, remainder)

/-- parse.rs:386-397: what follows the digits of the whole number part -/
def Fract.afterPrepend (digits : Bytes) (attos remainder : Nat) : T Nat :=
  if remainder = 0 then .ok attos
  else if digits.isEmpty then lift (liftP (Fundu.Fract.mulPow10 attos remainder))
  else do
    let o ← Fract.parseSlice attos remainder digits
    if 0 < o.2 then lift (liftP (Fundu.Fract.mulPow10 o.1 o.2)) else return o.1

/-- parse.rs:400-405 -/
def Fract.parseAlone (digits : Bytes) (maxToParse : Nat) : T Nat := do
  let o ← Fract.parseSlice 0 maxToParse digits
  if 0 < o.2 then lift (liftP (Fundu.Fract.mulPow10 o.1 o.2)) else return o.1

/-- parse.rs:372-408 -/
def Fract.parse (digits : Bytes) (prepend : Option Bytes) (zeros : Option Nat) : T Nat :=
  if digits.isEmpty && noneOrEmpty prepend then .ok 0
  else if 18 < Fundu.Fract.zerosOr0 zeros then .ok 0
  else
    match Fundu.Fract.nonEmpty prepend with
    | some p => do
      let o ← Fract.parseSlice 0 (18 - Fundu.Fract.zerosOr0 zeros) p
      Fract.afterPrepend digits o.1 o.2
    | none => Fract.parseAlone digits (18 - Fundu.Fract.zerosOr0 zeros)

/-- parse.rs:521-523 -/
def wholeSeconds (digits : Bytes) : Option Range → T (Option Nat)
  | none => .ok (some 0)
  | some w => do
    let s ← lift (liftP (DurationRepr.rangeSlice digits w))
    Whole.parse s none none

/-- parse.rs:525-527 -/
def fractAttos (digits : Bytes) : Option Range → T Nat
  | none => .ok 0
  | some f => do
    let s ← lift (liftP (DurationRepr.rangeSlice digits f))
    Fract.parse s none none

/-- parse.rs:484-497: the exponent moves the last digits of the whole number part behind the point -/
def shiftRight (digits : Bytes) (fract : Option Range) (w : Range) (exponentAbs : Nat) : T (Option (Nat × Nat)) := do
  let cut ← lift (liftP (subUsize w.stop exponentAbs))
  let s ← lift (liftP (slice digits w.start cut))
  let o ← Whole.parse s none none
  match o with
  | some seconds => do
    let f ← lift (liftP (DurationRepr.optSlice digits fract))
    let p ← lift (liftP (slice digits cut w.stop))
    let attos ← Fract.parse f (some p) none
    return some (seconds, attos)
  | none => return none

/-- parse.rs:500-504 and 512-518: no digits behind the point -/
def shiftWhole (digits : Bytes) (whole : Option Range) (exponentAbs : Nat) : T (Option (Nat × Nat)) := do
  let len ← lift (liftP (DurationRepr.optLen whole))
  let zeros ← lift (liftP (subUsize exponentAbs len))
  let s ← lift (liftP (DurationRepr.optSlice digits whole))
  let attos ← Fract.parse s none (some zeros)
  return some (0, attos)

/-- parse.rs:505-511 and 518: digits behind the point, after all of the whole number part -/
def shiftBoth (digits : Bytes) (whole : Option Range) (f : Range) (exponentAbs : Nat) : T (Option (Nat × Nat)) := do
  let fs ← lift (liftP (DurationRepr.rangeSlice digits f))
  let prepend ← lift (liftP (DurationRepr.prependSlice digits whole))
  let len ← lift (liftP (DurationRepr.optLen whole))
  let zeros ← lift (liftP (subUsize exponentAbs len))
  let attos ← Fract.parse fs prepend (some zeros)
  return some (0, attos)

/-- parse.rs:520-533: no exponent -/
def shiftNone (digits : Bytes) (whole fract : Option Range) : T (Option (Nat × Nat)) := do
  let o ← wholeSeconds digits whole
  match o with
  | some seconds => do
    let attos ← fractAttos digits fract
    return some (seconds, attos)
  | none => return none

/-- parse.rs:534-548: the exponent moves the first digits behind the point before it -/
def shiftLeft (digits : Bytes) (whole : Option Range) (f : Range) (exponentAbs : Nat) : T (Option (Nat × Nat)) := do
  let w ← lift (liftP (DurationRepr.optSlice digits whole))
  let a ← lift (liftP (slice digits f.start (f.start + exponentAbs)))
  let o ← Whole.parse w (some a) none
  match o with
  | some seconds => do
    let s ← lift (liftP (slice digits (f.start + exponentAbs) f.stop))
    let attos ← Fract.parse s none none
    return some (seconds, attos)
  | none => return none

/-- parse.rs:549-560: the exponent moves all digits behind the point before it -/
def shiftAll (digits : Bytes) (whole fract : Option Range) (exponentAbs : Nat) : T (Option (Nat × Nat)) := do
  let w ← lift (liftP (DurationRepr.optSlice digits whole))
  let append ← lift (liftP (DurationRepr.appendSlice digits fract))
  let len ← lift (liftP (DurationRepr.optLen fract))
  let zeros ← lift (liftP (subUsize exponentAbs len))
  let o ← Whole.parse w append (some zeros)
  match o with
  | some seconds => return some (seconds, 0)
  | none => return none

/-- parse.rs:483-560 -/
def secondsAndAttos (digits : Bytes) (whole fract : Option Range) (exponent : Int) : T (Option (Nat × Nat)) :=
  if exponent < 0 then do
    let o ← lift (liftP (DurationRepr.longerThan whole exponent.natAbs))
    match o with
    | some w => shiftRight digits fract w exponent.natAbs
    | none =>
      match fract with
      | some f =>
        if f.isEmpty then shiftWhole digits whole exponent.natAbs
        else shiftBoth digits whole f exponent.natAbs
      | none => shiftWhole digits whole exponent.natAbs
  else if exponent = 0 then shiftNone digits whole fract
  else do
    let o ← lift (liftP (DurationRepr.longerThan fract exponent.natAbs))
    match o with
    | some f => shiftLeft digits whole f exponent.natAbs
    | none => shiftAll digits whole fract exponent.natAbs

/-- parse.rs:437-568 `DurationRepr::parse`. Everything but the digits takes constant time: products and quotients of numbers
of 64 and 128 bits. -/
def convert (r : DurationRepr) : T Duration :=
  if r.isInfinite || (r.whole.isNone && r.fract.isNone) then lift (liftP r.parse)
  else do
    let m ← lift (liftP ((r.unit.getD r.defaultUnit).multiplier.mul r.multiplier))
    if m.coefficient = 0 then return Duration.ZERO
    else do
      let o ← secondsAndAttos r.input r.whole r.fract (m.exponent + r.exponent)
      match o with
      | some (seconds, attos) =>
        lift (liftP (DurationRepr.calculateDuration (Bool.xor (r.isNegative.getD false) (decide (m.coefficient < 0))) seconds attos m.coefficient))
      | none => return DurationRepr.saturated (Bool.xor (r.isNegative.getD false) (decide (m.coefficient < 0)))

/-! ## Parser -/

/-- parse.rs:124-132: the accumulation of parsed durations -/
def accumulate (duration parsed : Duration) : T Duration :=
  if parsed.isZero then .ok duration
  else if duration.isZero then .ok parsed
  else lift (liftP (duration.saturatingAdd parsed))

/-- `duration_repr.parse()?` followed by the test for negative durations, parse.rs:123-125 and 151-156 -/
def parseRepr (cfg : Config) (r : DurationRepr) : T Duration := do
  let parsed ← convert r
  if rejectNegative cfg parsed then fail .negativeNumber else return parsed

/-- the loop of parse.rs:110-138. The first argument is fuel. -/
def parseMultipleLoop (env : Env) : Nat → Duration → Cursor → T Duration
  | 0, _, _ => panic .fuel
  | fuel + 1, duration, c => do
    let (repr, next) ← templateParse .multiple env c
    let parsed ← parseRepr env.cfg repr
    let duration ← accumulate duration parsed
    match next with
    | some c => parseMultipleLoop env fuel duration c
    | none => return duration

/-- parse.rs:110-138 -/
def parseMultiple (env : Env) (source : Bytes) : T Duration :=
  parseMultipleLoop env (source.length + 1) Duration.ZERO (Cursor.new source)

/-- parse.rs:141-159 -/
def parseSingle (env : Env) (source : Bytes) : T Duration := do
  let (repr, _) ← templateParse .single env (Cursor.new source)
  parseRepr env.cfg repr

/-- parse.rs:229-233, with the arguments of the template in `env` -/
def parseWith (env : Env) (source : Bytes) : T Duration :=
  if env.cfg.allowMultiple then parseMultiple env source else parseSingle env source

/-- parse.rs:222-234 `Parser::parse` -/
def parse (cfg : Config) (units : TimeUnitsLike) (keywords : Option TimeUnitsLike)
    (numerals : Option NumbersLike) (source : Bytes) : T Duration :=
  parseWith { cfg := cfg, units := units, keywords := keywords, numerals := numerals } source

/-! ## fundu-gnu -/

/-- gnu/lib.rs:345-356 and gnu/lib.rs:363-374 -/
def scaled (r : DurationRepr) (whole : Range) (attos : T Nat) (m : Multiplier) : T Duration := do
  let s ← lift (liftP (DurationRepr.rangeSlice r.input whole))
  let o ← Whole.parse s none none
  match o with
  | some seconds => do
    let attos ← attos
    lift (liftP (DurationRepr.calculateDuration (Bool.xor (r.isNegative.getD false) (decide (m.coefficient < 0))) seconds attos m.coefficient))
  | none => return DurationRepr.saturated (Bool.xor (r.isNegative.getD false) (decide (m.coefficient < 0)))

/-- gnu/lib.rs:314-380 -/
def parseReprGnu (r : DurationRepr) : T Duration :=
  match r.whole, r.fract with
  | some whole, none => do
    let m ← lift (liftP ((r.unit.getD r.defaultUnit).multiplier.mul r.multiplier))
    scaled r whole (.ok 0) m
  | some whole, some fract =>
    if r.unit.getD r.defaultUnit = .second then
      if fract.isEmpty then lift (Gnu.parseRepr r)
      else do
        let m ← lift (liftP ((r.unit.getD r.defaultUnit).multiplier.mul r.multiplier))
        scaled r whole (fractAttos r.input (some fract)) m
    else lift (Gnu.parseRepr r)
  | none, _ => lift (Gnu.parseRepr r)

/-- gnu/lib.rs:395-448 -/
def fuzzyNumber (r : DurationRepr) : T Int :=
  match r.whole with
  | none => lift (Gnu.fuzzyNumber r)
  | some whole => do
    let s ← lift (liftP (DurationRepr.rangeSlice r.input whole))
    let o ← Whole.parse s none none
    lift (Gnu.fuzzyValue (Bool.xor (r.isNegative.getD false) r.multiplier.isNegative) o)

/-- gnu/lib.rs:389-448 -/
def fuzzyUnit (r : DurationRepr) : T Int :=
  if r.fract.isSome then fail (.invalidInput .fractionOnlyWithSeconds) else fuzzyNumber r

/-- gnu/lib.rs:382-449 -/
def parseReprFuzzy (r : DurationRepr) : T Gnu.FuzzyOutput :=
  if r.unit = some .month then do
    let value ← fuzzyUnit r
    return .months value
  else if r.unit = some .year then do
    let value ← fuzzyUnit r
    return .years value
  else do
    let d ← parseReprGnu r
    return .duration d

/-- gnu/lib.rs:662-699: the loop of `parse_fuzzy` -/
def fuzzyLoop (e : Env) : Nat → Gnu.Totals → Cursor → T Gnu.Totals
  | 0, _, _ => panic .fuel
  | fuel + 1, t, c => do
    let (repr, next) ← templateParse .multiple e c
    let output ← parseReprFuzzy repr
    let t ← lift (Gnu.addOutput t output)
    match next with
    | some c => fuzzyLoop e fuel t c
    | none => return t

end Fundu.Cost
