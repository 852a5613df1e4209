import Verif.Proofs.Buffer
import Verif.Spec.Grammar
/-!
# The parser as a function on texts

The functions here work on the remaining text instead of a cursor and forget the errors. They are an intermediate
step between the model of the parser and the grammar, and not part of the specification.
-/
namespace Fundu
open Spec

namespace L

/-- text after delimiters, which must not be the end -/
def skipDelims (d : Delimiter) (s : Bytes) : Option Bytes :=
  if s.dropWhile d = [] then none else some (s.dropWhile d)

/-- does the text start with the word -/
def starts (w s : Bytes) : Bool := startsWith s w

def headIs (p : UInt8 → Bool) : Bytes → Bool
  | [] => false
  | b :: _ => p b

def signRest (cfg : Config) (neg : Bool) (r : Bytes) : Option (Option Bool × Bytes) :=
  if r = [] then none
  else if cfg.allowSignDelimiter && headIs cfg.innerDelimiter r then
    (skipDelims cfg.innerDelimiter r).map (fun t => (some neg, t))
  else some (some neg, r)

def sign (cfg : Config) : Bytes → Option (Option Bool × Bytes)
  | [] => none
  | b :: r =>
    if b = 43 then signRest cfg false r
    else if b = 45 then signRest cfg true r
    else some (none, b :: r)

def fractDigits (W r : Bytes) : Option (Bytes × Bytes) :=
  if W = [] ∧ r.takeWhile isDigit = [] then none
  else some (r.takeWhile isDigit, r.dropWhile isDigit)

def fract (cfg : Config) (W : Bytes) : Bytes → Option (Bytes × Bytes)
  | [] => some ([], [])
  | b :: r =>
    if b = 46 then if cfg.disableFraction then none else fractDigits W r
    else some ([], b :: r)

def expSign : Bytes → Bool × Bytes
  | [] => (false, [])
  | b :: r => if b = 43 then (false, r) else if b = 45 then (true, r) else (false, b :: r)

def expDigits (neg : Bool) (r : Bytes) : Option (Int × Bytes) :=
  if r.takeWhile isDigit = [] then none
  else if IsI16 (signed neg (decimal (r.takeWhile isDigit))) then
    some (signed neg (decimal (r.takeWhile isDigit)), r.dropWhile isDigit)
  else none

def exp (cfg : Config) : Bytes → Option (Int × Bytes)
  | [] => some (0, [])
  | b :: r =>
    if b = 101 || b = 69 then
      if cfg.disableExponent then none else expDigits (expSign r).1 (expSign r).2
    else some (0, b :: r)

def afterConj (d : Delimiter) (s : Bytes) : Option Bytes :=
  if s = [] then none
  else if headIs d s then skipDelims d s
  else if headIs isNextDuration s then some s
  else none

def conj (d : Delimiter) (s : Bytes) : List Bytes → Option Bytes
  | [] => some s
  | w :: ws => if starts w s then afterConj d (s.drop w.length) else conj d s ws

/-- connection if there is a delimiter -/
def conn (cfg : Config) (s : Bytes) : Option Bytes :=
  if headIs cfg.outerDelimiter s then
    (skipDelims cfg.outerDelimiter s).bind fun t => conj cfg.outerDelimiter t (cfg.conjunctions.getD [])
  else some s

/-- `finalize` -/
def final (mode : Mode) (cfg : Config) (s : Bytes) : Option Bytes :=
  match mode with
  | .single => if s = [] then some [] else none
  | .multiple => conn cfg s

def agoSingle (cfg : Config) (s : Bytes) (u : Unit') (r : Bytes) : Option (Option Unit' × Bytes) :=
  if r = [] then some (some u, [])
  else (skipDelims cfg.innerDelimiter r).bind fun t =>
    if starts (b! "ago") t then some (some (u.1, u.2.saturatingNeg), t.drop 3) else some (none, s)

def unitFound (s : Bytes) (f : Unit' → Option (Option Unit' × Bytes)) : Option Unit' → Option (Option Unit' × Bytes)
  | none => some (none, s)
  | some u => f u

def lookup (units : TimeUnitsLike) (s : Bytes) : Option (Option Unit' × Bytes) :=
  unitFound s (fun u => some (some u, [])) (units.get s)

def word (d : Delimiter) (s : Bytes) : Bytes := s.takeWhile (fun b => !d b)
def afterWord (d : Delimiter) (s : Bytes) : Bytes := s.dropWhile (fun b => !d b)

def unitSingle (cfg : Config) (units : TimeUnitsLike) (s : Bytes) : Option (Option Unit' × Bytes) :=
  if cfg.allowAgo then
    if word cfg.innerDelimiter s = [] then some (none, s)
    else unitFound s (fun u => agoSingle cfg s u (afterWord cfg.innerDelimiter s))
      (units.get (word cfg.innerDelimiter s))
  else lookup units s

/-- `ago` if followed by the end or by what ends a word -/
def afterAgo (cfg : Config) (s : Bytes) (u : Unit') (t : Bytes) : Unit' × Bytes :=
  if t = [] ∨ headIs (wordEnd cfg) t = true then ((u.1, u.2.saturatingNeg), t) else (u, s)

def agoMultiple (cfg : Config) (u : Unit') (s : Bytes) : Option (Unit' × Bytes) :=
  if cfg.allowAgo && headIs cfg.innerDelimiter s then
    (skipDelims cfg.innerDelimiter s).map fun t =>
      if starts (b! "ago") t then afterAgo cfg s u (t.drop 3) else (u, s)
  else some (u, s)

def unitTail (cfg : Config) (r : Bytes) (u : Unit') : Option (Option Unit' × Bytes) :=
  (agoMultiple cfg u r).bind fun o => (conn cfg o.2).map fun t => (some o.1, t)

def unitMultiple (cfg : Config) (units : TimeUnitsLike) (s : Bytes) : Option (Option Unit' × Bytes) :=
  if word (unitEnd cfg) s = [] then some (none, s)
  else unitFound s (unitTail cfg (afterWord (unitEnd cfg) s)) (units.get (word (unitEnd cfg) s))

def unit (mode : Mode) (cfg : Config) (units : TimeUnitsLike) (s : Bytes) : Option (Option Unit' × Bytes) :=
  match mode with
  | .single => unitSingle cfg units s
  | .multiple => unitMultiple cfg units s

def keywordTail (cfg : Config) (r : Bytes) (u : Unit') : Option (Option Unit' × Bytes) :=
  (conn cfg r).map fun t => (some u, t)

def keywordMultiple (cfg : Config) (k : TimeUnitsLike) (s : Bytes) : Option (Option Unit' × Bytes) :=
  if word (wordEnd cfg) s = [] then some (none, s)
  else unitFound s (keywordTail cfg (afterWord (wordEnd cfg) s)) (k.get (word (wordEnd cfg) s))

def keyword (mode : Mode) (cfg : Config) (k : Option TimeUnitsLike) (s : Bytes) : Option (Option Unit' × Bytes) :=
  match k with
  | none => some (none, s)
  | some k =>
    match mode with
    | .single => lookup k s
    | .multiple => keywordMultiple cfg k s

def numeralFound (cfg : Config) (s r : Bytes) : Option Multiplier → Option (Option Multiplier × Bytes)
  | none => some (none, s)
  | some q =>
    if headIs cfg.innerDelimiter r then (skipDelims cfg.innerDelimiter r).map fun t => (some q, t)
    else some (none, s)

def numeral (cfg : Config) (n : Option NumbersLike) (s : Bytes) : Option (Option Multiplier × Bytes) :=
  match n with
  | none => some (none, s)
  | some n =>
    if word cfg.innerDelimiter s = [] then some (none, s)
    else numeralFound cfg s (afterWord cfg.innerDelimiter s) (n (word cfg.innerDelimiter s))

/-- delimiters between number and unit -/
def numDelim (cfg : Config) (s : Bytes) : Option Bytes :=
  if cfg.allowTimeUnitDelimiter && headIs cfg.innerDelimiter s then skipDelims cfg.innerDelimiter s else some s

def needUnit (mode : Mode) (o : Option Unit' × Bytes) : Option (Option Unit' × Bytes) :=
  match mode with
  | .single => if o.1 = none then none else some o
  | .multiple => some o

/-- the unit of a number -/
def numUnit (mode : Mode) (env : Env) (s : Bytes) : Option (Option Unit' × Bytes) :=
  if s = [] then some (none, [])
  else if env.units.isEmpty then
    match mode with
    | .single => none
    | .multiple => some (none, s)
  else (unit mode env.cfg env.units s).bind (needUnit mode)

def afterWhole (mode : Mode) (env : Env) (W s : Bytes) : Option (Item × Bytes) :=
  (fract env.cfg W s).bind fun f => (exp env.cfg f.2).bind fun e => (numDelim env.cfg e.2).bind fun t =>
    (numUnit mode env t).bind fun u => (final mode env.cfg u.2).map fun t => (.number W f.1 e.1 u.1, t)

def numeralUnit (mode : Mode) (env : Env) (q : Multiplier) (o : Option Unit' × Bytes) : Option (Item × Bytes) :=
  match o.1 with
  | none => none
  | some u => (final mode env.cfg o.2).map fun t => (.numeral q u, t)

def numeralWord (mode : Mode) (env : Env) (s : Bytes) : Option (Item × Bytes) :=
  (numeral env.cfg env.numerals s).bind fun o =>
    match o.1 with
    | none => none
    | some q => (unit mode env.cfg env.units o.2).bind (numeralUnit mode env q)

def unitWord (mode : Mode) (env : Env) (s : Bytes) : Option (Item × Bytes) :=
  if env.cfg.numberIsOptional then
    (unit mode env.cfg env.units s).bind fun o =>
      match o.1 with
      | some u => (final mode env.cfg o.2).map fun t => (.word u, t)
      | none => numeralWord mode env s
  else numeralWord mode env s

def anyWord (mode : Mode) (env : Env) (s : Bytes) : Option (Item × Bytes) :=
  (keyword mode env.cfg env.keywords s).bind fun o =>
    match o.1 with
    | some u => (final mode env.cfg o.2).map fun t => (.word u, t)
    | none => unitWord mode env s

def afterInf (mode : Mode) (cfg : Config) (s : Bytes) : Option Bytes :=
  match mode with
  | .single => if s = [] ∨ eqIgnoreCase s (b! "inity") = true then some [] else none
  | .multiple =>
    if s = [] then some []
    else if headIs cfg.outerDelimiter s then conn cfg s
    else if starts (b! "inity") s then
      if s.drop 5 = [] ∨ headIs cfg.outerDelimiter (s.drop 5) = true then conn cfg (s.drop 5) else none
    else none

def body (mode : Mode) (env : Env) (s : Bytes) : Option (Item × Bytes) :=
  if s = [] then none
  else if headIs isDigit s then afterWhole mode env (s.takeWhile isDigit) (s.dropWhile isDigit)
  else if headIs (fun b => b = 46) s then afterWhole mode env [] s
  else if !env.cfg.disableInfinity && starts (b! "inf") s then
    (afterInf mode env.cfg (s.drop 3)).map fun t => (.infinity, t)
  else anyWord mode env s

def template (mode : Mode) (env : Env) (s : Bytes) : Option ((Bool × Item) × Bytes) :=
  (sign env.cfg s).bind fun o => (body mode env o.2).map fun i => ((o.1.getD false, i.1), i.2)

/-- the value of an item -/
def value (cfg : Config) (neg : Bool) : Item → Except Panic Duration
  | .number W F e u =>
    match (u.getD (cfg.defaultUnit, ⟨1, 0⟩)).1.multiplier.checkedMul (u.getD (cfg.defaultUnit, ⟨1, 0⟩)).2 with
    | some m => .ok (literalDuration neg (decimal (W ++ F)) (m.exponent + e - F.length) m.coefficient)
    | none => .error .unwrap
  | .infinity => .ok (Duration.fromStd neg StdDuration.MAX)
  | .word u =>
    match u.1.multiplier.checkedMul u.2 with
    | some m => DurationRepr.parseDurationWithFixedNumber { isNegative := some neg } m.coefficient m.exponent
    | none => .error .unwrap
  | .numeral q u =>
    match (q.checkedMul u.1.multiplier).bind (fun a => a.checkedMul u.2) with
    | some m => DurationRepr.parseDurationWithFixedNumber { isNegative := some neg } m.coefficient m.exponent
    | none => .error .unwrap

end L
end Fundu
