import Verif.Props.Local
import Verif.Props.Systemd
/-! # C40: where the two variants of fundu-systemd differ -/
namespace Fundu.Props
open Fundu Spec
open Fundu.Systemd (TimeSpanParser)

/-- the two tables differ only in `ns` and `nsec` -/
theorem systemdNanos_tables {w s : Bytes} (hs : ¬ OccursIn (b! "ns") s) (hw : OccursIn w s) :
    Systemd.TIME_UNITS_WITH_NANOS.get w = Systemd.TIME_UNITS.get w := by
  show Systemd.timeUnitsWithNanosGet w = Systemd.timeUnitsGet w
  unfold Systemd.timeUnitsWithNanosGet
  rw [if_neg]
  · rfl
  · intro h
    obtain ⟨a, b, rfl⟩ := hw
    rcases List.mem_cons.1 h with rfl | h
    · exact hs ⟨a, b, rfl⟩
    · obtain rfl := List.mem_singleton.1 h
      exact hs ⟨a, b! "ec" ++ b, by rw [show b! "nsec" = b! "ns" ++ b! "ec" by decide, List.append_assoc, List.append_assoc, List.append_assoc]⟩

theorem bind_panic {α β : Type} (e : Panic) (f : α → R β) : ((panic e : R α) >>= f) = panic e := rfl

/-- C40, for all bytes, all default units and all maxima: if the text does not contain `ns` then both variants have the same result,
value, error or panic. -/
theorem C40_same (p : TimeSpanParser) (s : Bytes) (max : Duration) (hs : ¬ OccursIn (b! "ns") s) :
    p.parseNanosWithMax s max = p.parseWithMax s max := by
  unfold TimeSpanParser.parseNanosWithMax TimeSpanParser.parseWithMax
  refine congrArg (liftP (assert (Systemd.isPositive max)) >>= ·) (funext fun _ => ?_)
  obtain ⟨pre, post, ht, -⟩ := trim_trimmed s
  unfold trimWhitespace utf8Unchecked
  by_cases hv : utf8Valid (trimWhitespaceBytes s) = true
  · rw [if_pos hv]
    show p.parseTrimmed _ _ max = p.parseTrimmed _ _ max
    generalize trimWhitespaceBytes s = m at ht
    unfold TimeSpanParser.parseTrimmed
    have key : Fundu.parse p.config Systemd.TIME_UNITS_WITH_NANOS none none m = Fundu.parse p.config Systemd.TIME_UNITS none none m := by
      refine C104_bytes (sameOptions_refl _) ?_ rfl (fun _ _ => rfl) rfl (fun _ _ => rfl) rfl
      rintro w ⟨a, b, rfl⟩
      exact systemdNanos_tables hs ⟨pre ++ a, b ++ post, by rw [ht]; simp only [List.append_assoc]⟩
    rw [key]
  · rw [if_neg hv]
    exact (bind_panic _ _).trans (bind_panic _ _).symm

/-- C40, the functions `parse` and `parse_nanos` with the same maximum -/
theorem C40_same_functions (s : Bytes) (u : Option TimeUnit) (max : Duration) (hs : ¬ OccursIn (b! "ns") s) :
    Systemd.parseNanos s u (some max) = Systemd.parse s u (some max) := C40_same _ s max hs

/-- an error is the same; a text with `ns` may be an error in one of the variants only -/
example : Systemd.parseNanos (b! "1min 3sek") none (some Duration.MAX) = Systemd.parse (b! "1min 3sek") none (some Duration.MAX) ∧
    (Systemd.parse (b! "1min 3sek") none (some Duration.MAX)).toOption = none ∧
    (Systemd.parse (b! "1min 3ns") none (some Duration.MAX)).toOption = none ∧
    (Systemd.parseNanos (b! "1min 3ns") none (some Duration.MAX)).toOption = some ⟨false, ⟨60, 3⟩⟩ := by
  refine ⟨C40_same_functions _ _ _ ?_, by decide +kernel, by decide +kernel, by decide +kernel⟩
  rw [occursIn_iff]
  decide

end Fundu.Props
