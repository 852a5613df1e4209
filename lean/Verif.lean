import Verif.Model.Prim
import Verif.Model.Time
import Verif.Model.Number
import Verif.Model.Config
import Verif.Model.Bytes
import Verif.Model.Parse
import Verif.Spec.Time
import Verif.Proofs.Prim
import Verif.Props.Time
import Verif.Props.TimeAccess
import Verif.Props.Multiplier
import Verif.Props.Conversion
import Verif.Props.Number
import Verif.Props.Safety
import Verif.Props.Buffer
import Verif.Props.Grammar
import Verif.Props.GrammarMultiple
import Verif.Props.Signs
import Verif.Props.Sum
import Verif.Props.Words
import Verif.Props.Util
import Verif.Props.Calendar
import Verif.Props.DateTime
import Verif.Props.Builder
import Verif.Props.Units
import Verif.Props.Standard
import Verif.Props.Trim
import Verif.Props.Systemd
import Verif.Props.Display
import Verif.Props.GnuWords
import Verif.Props.Gnu
import Verif.Props.GnuTexts
import Verif.Props.Options
import Verif.Props.Gate
import Verif.Props.Errors
import Verif.Props.Mistakes
import Verif.Props.Message
import Verif.Props.Concat
import Verif.Props.CustomUnits
import Verif.Props.Access
import Verif.Props.GnuMistakes
import Verif.Props.Exact
import Verif.Props.Sentences
import Verif.Props.Regex
import Verif.Props.Float
import Verif.Props.Respaced
import Verif.Props.GnuConcat
import Verif.Props.Literal
import Verif.Props.Serde
import Verif.Props.GnuRegex
import Verif.Model.Examples
import Verif.Model.Defaults
import Verif.Props.Examples
import Verif.Props.Defaults
import Verif.Conformance.Parser
import Verif.Conformance.Gnu
import Verif.Conformance.Systemd
import Verif.Conformance.Numerals
import Verif.Conformance.Time
import Verif.Conformance.Repr
import Verif.Conformance.Error
import Verif.Conformance.Util
import Verif.Conformance.GnuUtil
import Verif.Conformance.DateTime
import Verif.Conformance.CustomUnits
import Verif.Conformance.CustomNumerals
import Verif.Conformance.CustomParser
import Verif.Conformance.StandardUnits
import Verif.Model.Operators
import Verif.Props.Operators
import Verif.Spec.Vocabulary
import Verif.Props.Phrases
import Verif.Props.MoreWords
import Verif.Props.Order
import Verif.Props.Case
import Verif.Model.ExamplesClap
import Verif.Props.ExamplesClap
import Verif.Props.Findings
import Verif.Conformance.DocsCore
import Verif.Conformance.DocsGnu
import Verif.Conformance.DocsSystemd
import Verif.Conformance.DocsStandard
import Verif.Conformance.DocsCustom
import Verif.Conformance.DocsReadme
import Verif.Spec.Usable
import Verif.Proofs.Usable
import Verif.Props.Usable
import Verif.Spec.Negated
import Verif.Proofs.Negated
import Verif.Props.Negated
import Verif.Spec.GnuNegated
import Verif.Proofs.GnuNegated
import Verif.Props.GnuNegated
import Verif.Spec.SystemdSpans
import Verif.Proofs.SystemdSpans
import Verif.Props.SystemdSpans
import Verif.Spec.OutOfRange
import Verif.Proofs.OutOfRange
import Verif.Props.OutOfRange
import Verif.Props.GnuWritten
import Verif.Spec.Months
import Verif.Proofs.Months
import Verif.Props.GnuMonths
import Verif.Spec.Documented
import Verif.Proofs.Documented
import Verif.Props.Documented
import Verif.Spec.Permuted
import Verif.Props.Permuted
import Verif.Props.SystemdDisplay
import Verif.Props.SumSign
import Verif.Spec.DefaultUnit
import Verif.Props.DefaultUnit
import Verif.Spec.GnuExample
import Verif.Proofs.GnuExample
import Verif.Proofs.GnuExampleValue
import Verif.Props.GnuExample
import Verif.Props.ExactResults
import Verif.Model.RawBytes
import Verif.Proofs.RawBytes
import Verif.Props.RawBytes
import Verif.Model.Cost
import Verif.Proofs.CostErase
import Verif.Proofs.CostRun
import Verif.Proofs.CostNumber
import Verif.Proofs.CostWord
import Verif.Proofs.CostEnds
import Verif.Proofs.CostEats
import Verif.Proofs.CostSingle
import Verif.Props.Cost
import Verif.Props.Sequence
import Verif.Proofs.Local
import Verif.Proofs.LocalParse
import Verif.Spec.Local
import Verif.Props.Local
import Verif.Spec.Alphabet
import Verif.Props.Alphabet
import Verif.Spec.Ends
import Verif.Props.Ends
import Verif.Props.SystemdExample
import Verif.Props.SystemdNanos
import Verif.Spec.Renumbered
import Verif.Proofs.Renumbered
import Verif.Proofs.GnuRenumbered
import Verif.Props.Renumbered
import Verif.Props.Pieces
import Verif.Props.JoinedAdd
import Verif.Props.CalendarOrder
import Verif.Proofs.GnuSuffix
import Verif.Proofs.OtherNumbers
import Verif.Props.OtherNumbers
import Verif.Props.Laws
import Verif.Props.Equal
import Verif.Props.LiteralExact
import Verif.Props.DateLaws
import Verif.Props.GnuDefaultUnit
import Verif.Props.LaterMistakes
import Verif.Props.GnuLaterMistakes
import Verif.Props.Lengths
import Verif.Props.Bare
import Verif.Props.Conjunctions
import Verif.Props.Distinct
import Verif.Props.Longer
import Verif.Props.Known
import Verif.Props.MonthOrder
