import Verif.Spec.Regex
/-!
# Specification: the syntax of gnu relative times as a regular expression

The regular expressions are those of the project's fuzz target (/repo/fundu-gnu/fuzz/fuzz_targets/parsing.rs:14-63). All of them ignore the case of letters.
-/
namespace Fundu.Spec
open Regex

/-- the regular expression matches somewhere in the text -/
def Regex.Search (r : Regex) (s : Bytes) : Prop := ∃ a x c, s = a ++ (x ++ c) ∧ r.Matches x

namespace GnuRegex

/-- parsing.rs:14 `RE_DELIMITER` -/
def space : Regex := .one fun b => decide (b = 32 ∨ b = 9 ∨ b = 10 ∨ b = 12 ∨ b = 13 ∨ b = 11)
/-- parsing.rs:15-16 `RE_NUMERAL` -/
def numeralWords : List Bytes := [b! "last", b! "this", b! "next", b! "first", b! "third", b! "fourth", b! "fifth", b! "sixth",
  b! "seventh", b! "eighth", b! "ninth", b! "tenth", b! "eleventh", b! "twelfth"]
/-- the words of seconds in parsing.rs:17 -/
def secondWords : List Bytes := [b! "seconds", b! "second", b! "secs", b! "sec"]
/-- parsing.rs:18 `RE_TIME_UNIT_NOT_SEC` -/
def otherUnitWords : List Bytes := [b! "minutes", b! "minute", b! "mins", b! "min", b! "hours", b! "hour", b! "days", b! "day", b! "weeks", b! "week",
  b! "fortnights", b! "fortnight", b! "months", b! "month", b! "years", b! "year"]
/-- parsing.rs:19 `RE_KEYWORD` -/
def keywordWords : List Bytes := [b! "yesterday", b! "today", b! "now", b! "tomorrow"]

/-- one of the words, in any case -/
def words (ws : List Bytes) : Regex := oneOf (ws.map anyCase)
/-- parsing.rs:15-16 -/
def numeral : Regex := words numeralWords
/-- parsing.rs:17 `RE_TIME_UNIT` -/
def unit : Regex := words (secondWords ++ otherUnitWords)
/-- parsing.rs:19 -/
def keyword : Regex := words keywordWords
/-- parsing.rs:20 `RE_AGO`, and the delimiters in front of it; both can be missing -/
def ago : Regex := opt (.seq (many1 space) (anyCase (b! "ago")))
/-- a time unit and `ago` -/
def unitAgo : Regex := .seq unit ago
/-- `[[:digit:]]+` -/
def digits : Regex := many1 digit
/-- `[[:digit:]]+\.[[:digit:]]+` -/
def decimal : Regex := .seq digits (.seq (byte 46) digits)
/-- parsing.rs:30-32 `duration_digit` -/
def durationDigit : Regex := oneOf [.seq digits (.seq (.many space) unitAgo), .seq decimal (.seq (.many space) unitAgo), decimal, digits]
/-- a duration without its sign -/
def body : Regex := oneOf [keyword, .seq numeral (.seq (many1 space) unitAgo), unitAgo, durationDigit]
/-- `[+-]{RE_DELIMITER}*` -/
def sign : Regex := .seq (.alt (byte 43) (byte 45)) (.many space)
/-- parsing.rs:24-26 `duration` -/
def duration : Regex := .seq (opt sign) body
/-- parsing.rs:27-29 `duration_sign` -/
def durationSign : Regex := .seq sign body
/-- parsing.rs:34-41: the main regular expression; it has to match the whole text -/
def main : Regex := .seq duration (.many (oneOf [durationDigit, durationSign, .seq (many1 space) duration]))

/-- `[[:digit]]` in parsing.rs:46 is not the class of digits, but that of the characters of `:digit` -/
def typo : Regex := .one fun b => decide (lower b ∈ b! ":digt")
/-- parsing.rs:44-52: accepted texts which the main expression does not match contain this one -/
def control : Regex := .seq (.alt digits (.seq digits (.seq (byte 46) (many1 typo))))
  (.seq (.alt (.seq numeral (.seq (many1 space) unit)) keyword) ago)
/-- parsing.rs:55-63: texts with wrong fractions contain this one -/
def fraction : Regex := .seq decimal (.alt (byte 46) (.seq (.many space) (words otherUnitWords)))

end GnuRegex
end Fundu.Spec
