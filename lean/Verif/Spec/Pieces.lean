import Verif.Spec.Concat
import Verif.Spec.GnuConcat
import Verif.Spec.Text
/-!
# Specification: a text which is made of shorter ones
-/
namespace Fundu.Spec

/-- what stands between two durations: delimiters (or nothing), or delimiters, a conjunction in any case and perhaps further
delimiters -/
inductive Separator (cfg : Config) : Bytes → Prop
  | delims {ds} : (∀ b ∈ ds, IsDelimiter cfg b) → Separator cfg ds
  | conjunction {ds x ds' w} : (∀ b ∈ ds, IsDelimiter cfg b) → ds ≠ [] → w ∈ cfg.conjunctions.getD [] → SameText x w →
      (∀ b ∈ ds', IsDelimiter cfg b) → Separator cfg (ds ++ (x ++ ds'))

/-- the text is made of texts which mean the durations of the list, with separators between them -/
inductive Pieces (cfg : Config) (means : Bytes → Duration → Prop) : Bytes → List Duration → Prop
  | last {p d} : means p d → Pieces cfg means p [d]
  | more {p d sep s l} : means p d → Separator cfg sep → Pieces cfg means s l → Pieces cfg means (p ++ (sep ++ s)) (d :: l)

/-- the relative time is made of texts which mean the parts of the list, with white space (or nothing) between them -/
inductive GnuPieces (means : Bytes → GnuPart → Prop) : Bytes → List GnuPart → Prop
  | last {p part} : means p part → GnuPieces means p [part]
  | more {p part sp s l} : means p part → (∀ b ∈ sp, PosixSpace b) → GnuPieces means s l → GnuPieces means (p ++ (sp ++ s)) (part :: l)

end Fundu.Spec
