import Verif.Spec.Units
/-!
# Specification of custom time units: limits of their multipliers, and the ready-made lists
-/
namespace Fundu.Spec

/-- The limits of a multiplier for a custom unit with this base unit: the least and the greatest coefficient and the least
exponent. (The documentation of `CustomTimeUnit` gives twice the greatest coefficients, finding F18.) -/
def multiplierLimits : List (TimeUnit × Int × Int × Int) := [
  (.nanoSecond, -9223372036854775808, 9223372036854775807, -32759),
  (.microSecond, -9223372036854775808, 9223372036854775807, -32762),
  (.milliSecond, -9223372036854775808, 9223372036854775807, -32765),
  (.second, -9223372036854775808, 9223372036854775807, -32768),
  (.minute, -153722867280912930, 153722867280912930, -32768),
  (.hour, -2562047788015215, 2562047788015215, -32768),
  (.day, -106751991167300, 106751991167300, -32768),
  (.week, -15250284452471, 15250284452471, -32768),
  (.month, -3507252276543, 3507252276543, -32768),
  (.year, -292271023045, 292271023045, -32768)]

/-- the microsecond with the Greek letter mu, which fundu-systemd knows -/
def greekMicroSecond : Bytes := b! "\u03bcs"

end Fundu.Spec
