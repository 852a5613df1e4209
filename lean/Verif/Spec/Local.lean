import Verif.Spec.Calls
import Verif.Spec.Grammar
/-! # Specification: what a text consists of (C104) -/
namespace Fundu.Spec
open Fundu

/-- the word is a part of the text -/
def OccursIn (w s : Bytes) : Prop := ∃ before after, s = before ++ w ++ after

/-- two tables give the same answer for every word which occurs in the text -/
def SameAnswers {α : Type} (s : Bytes) (t t' : Bytes → Option α) : Prop := ∀ w, OccursIn w s → t' w = t w

/-- the word is a part of the text, in upper or lower case -/
def OccursAnyCase (w s : Bytes) : Prop := ∃ v, OccursIn v s ∧ SameText v w

/-- somewhere in the text a byte of the first kind is directly followed by a byte of the second kind -/
def Adjacent (p q : UInt8 → Prop) (s : Bytes) : Prop := ∃ a b, OccursIn [a, b] s ∧ p a ∧ q b

/-- the last byte of a number without exponent -/
def NumberByte (b : UInt8) : Prop := IsDigit b ∨ b = 46

open Classical in
/-- the words of a list which occur in the text, in upper or lower case -/
noncomputable def occurring (s : Bytes) (ws : List Bytes) : List Bytes := ws.filter fun w => decide (OccursAnyCase w s)

/-- the conjunction which is found at the start of the text `r`: the first one of the list which the text starts with, in any case -/
def foundConjunction : List Bytes → Bytes → Option Bytes
  | [], _ => none
  | w :: ws, r => if SameText (r.take w.length) w then some w else foundConjunction ws r

/-- The delimiters decide the same for every byte of the text, and the options are the same as far as the text has a use for them. The default
multiplier has no use. -/
structure SameOptions (s : Bytes) (cfg cfg' : Config) : Prop where
  inner : ∀ b ∈ s, cfg'.innerDelimiter b = cfg.innerDelimiter b
  outer : ∀ b ∈ s, cfg'.outerDelimiter b = cfg.outerDelimiter b
  defaultUnit : cfg'.defaultUnit = cfg.defaultUnit
  multiple : cfg'.allowMultiple = cfg.allowMultiple
  negative : cfg'.allowNegative = cfg.allowNegative
  optional : cfg'.numberIsOptional = cfg.numberIsOptional
  /-- everywhere in the text the same conjunction is found -/
  conjunctions : ∀ r, r <:+ s → foundConjunction (cfg'.conjunctions.getD []) r = foundConjunction (cfg.conjunctions.getD []) r
  /-- a point occurs in the text -/
  fraction : 46 ∈ s → cfg'.disableFraction = cfg.disableFraction
  /-- the letter e follows a digit or a point -/
  exponent : Adjacent NumberByte (fun b => b = 101 ∨ b = 69) s → cfg'.disableExponent = cfg.disableExponent
  infinity : OccursAnyCase (b! "inf") s → cfg'.disableInfinity = cfg.disableInfinity
  /-- a delimiter follows a sign -/
  signDelimiter : Adjacent (fun b => b = 43 ∨ b = 45) (cfg.innerDelimiter · = true) s → cfg'.allowSignDelimiter = cfg.allowSignDelimiter
  /-- a delimiter follows a digit or a point -/
  unitDelimiter : Adjacent NumberByte (cfg.innerDelimiter · = true) s → cfg'.allowTimeUnitDelimiter = cfg.allowTimeUnitDelimiter
  /-- there is a delimiter -/
  ago : (∃ b ∈ s, cfg.innerDelimiter b = true) → cfg'.allowAgo = cfg.allowAgo

/-- The text has no use for what a call changes in the options of a parser. -/
def Unused (s : Bytes) (cfg : Config) : SetterCall → Prop
  | .defaultUnit u => u = cfg.defaultUnit
  | .allowTimeUnitDelimiter _ => ¬ Adjacent NumberByte (cfg.innerDelimiter · = true) s
  | .allowSignDelimiter _ => ¬ Adjacent (fun b => b = 43 ∨ b = 45) (cfg.innerDelimiter · = true) s
  | .allowNegative v => v = cfg.allowNegative
  | .allowAgo v => (v = true → cfg.allowNegative = true) ∧ ∀ b ∈ s, cfg.innerDelimiter b = false
  | .disableExponent _ => ¬ Adjacent NumberByte (fun b => b = 101 ∨ b = 69) s
  | .disableFraction _ => 46 ∉ s
  | .disableInfinity _ => ¬ OccursAnyCase (b! "inf") s
  | .numberIsOptional v => v = cfg.numberIsOptional
  | .parseMultiple v c => v = cfg.allowMultiple ∧ occurring s (c.getD []) = occurring s (cfg.conjunctions.getD [])
  | .setInnerDelimiter d => ∀ b ∈ s, d b = cfg.innerDelimiter b
  | .setOuterDelimiter d => ∀ b ∈ s, d b = cfg.outerDelimiter b

/-- the answers of the keywords of a parser, none if it has no keywords -/
def keywordAnswers (k : Option TimeUnitsLike) (w : Bytes) : Option (TimeUnit × Multiplier) := k.bind fun t => t.get w
/-- the answers of the numerals of a parser, none if it has no numerals -/
def numeralAnswers (n : Option NumbersLike) (w : Bytes) : Option Multiplier := n.bind fun t => t w

/-- the words a call adds to a parser -/
def addedWords : CustomCall → List Bytes
  | c => c.units.flatMap (·.identifiers) ++ c.keywordUnits.flatMap (·.timeUnit.identifiers) ++ c.numeralList.flatMap (·.identifiers)

end Fundu.Spec
