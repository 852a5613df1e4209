import Verif.Proofs.Buffer
import Verif.Props.Safety
/-!
# Property C33: buffering the last scan does not change what is parsed
-/
namespace Fundu.Props
open Fundu Fundu.Spec

/-- The parser which looks for words with the plain scan `Bytes::advance_to` from the current position instead
of the buffered one. Everything else is the parser of the source. -/
def parseUnbuffered (cfg : Config) (units : TimeUnitsLike) (keywords : Option TimeUnitsLike)
    (numerals : Option NumbersLike) (source : Bytes) : R Duration :=
  parseWith { cfg := cfg, units := units, keywords := keywords, numerals := numerals,
              scan := fun d c => c.advanceTo d } source

/-- C33: for every input (not only UTF-8) the parser gives the same result, value or error, with and without
the buffer, if each inner delimiter is an outer delimiter too, or if there are neither keywords nor numerals,
or if only a single duration is parsed. -/
theorem C33_buffer_transparent (cfg : Config) (units : TimeUnitsLike) (keywords : Option TimeUnitsLike)
    (numerals : Option NumbersLike) (s : Bytes)
    (h : (∀ b, cfg.innerDelimiter b = true → cfg.outerDelimiter b = true) ∨
      (keywords = none ∧ numerals = none) ∨ cfg.allowMultiple = false) :
    parse cfg units keywords numerals s = parseUnbuffered cfg units keywords numerals s := by
  refine parseWith_sim (env := { cfg := cfg, units := units, keywords := keywords, numerals := numerals }) ?_ s
  rcases h with h | h | h
  · exact Or.inl h
  · exact Or.inr (Or.inl h)
  · exact Or.inr (Or.inr (by simp only [Config.mode, h, Bool.false_eq_true, if_false]))

/-- C33: in particular if inner and outer delimiter are the same function -/
theorem C33_same_delimiters (cfg : Config) (units : TimeUnitsLike) (keywords : Option TimeUnitsLike)
    (numerals : Option NumbersLike) (s : Bytes) (h : cfg.innerDelimiter = cfg.outerDelimiter) :
    parse cfg units keywords numerals s = parseUnbuffered cfg units keywords numerals s :=
  C33_buffer_transparent cfg units keywords numerals s (Or.inl (fun b hb => by rw [← h]; exact hb))

/-- the default delimiters satisfy the hypothesis, with keywords and numerals and multiple durations; the word is
scanned three times here -/
example : exampleConfig.innerDelimiter = exampleConfig.outerDelimiter ∧
    parse exampleConfig exampleUnits (some exampleKeywords) (some exampleNumerals) (b! "two s and 1s") =
      .ok ⟨false, ⟨3, 0⟩⟩ := by
  refine ⟨rfl, ?_⟩
  decide +kernel

/-- Without the hypothesis the buffer changes the result (finding F5): inner delimiter space, outer delimiter
comma, keywords and `ago`. The scan for a keyword stops at a comma or digit, the scan for a time unit would stop
at the space too, but uses the buffer of the first. -/
def commaConfig : Config :=
  { exampleConfig with allowNegative := true, outerDelimiter := fun b => b = 44 }

/-- C33: the hypothesis cannot be dropped -/
theorem C33_counterexample :
    parse commaConfig exampleUnits (some exampleKeywords) none (b! "s ago") ≠
      parseUnbuffered commaConfig exampleUnits (some exampleKeywords) none (b! "s ago") ∧
    parseUnbuffered commaConfig exampleUnits (some exampleKeywords) none (b! "s ago") = .ok ⟨true, ⟨1, 0⟩⟩ := by
  decide +kernel

end Fundu.Props
