import Verif.Model.Standard
/-!
# Specification: parsers which can be told apart
-/
namespace Fundu.Spec

/-- delimiters are the ASCII white space, and there are no conjunctions (the defaults) -/
structure PlainDelimiters (c : Config) : Prop where
  inner : c.innerDelimiter = isAsciiWhitespace
  outer : c.outerDelimiter = isAsciiWhitespace
  conjunctions : c.conjunctions = none

/-- the same options, except for the default multiplier, which has no use -/
def SameSettings (c c' : Config) : Prop := { c' with defaultMultiplier := c.defaultMultiplier } = c

end Fundu.Spec
