import Verif.Model.ExamplesClap
import Verif.Props.Conversion
import Verif.Props.Standard
import Verif.Props.Gnu
/-!
# Property C85, the remaining example programs
-/
namespace Fundu.Props
open Fundu Fundu.Spec

/-- C85, simple.rs: the assertion of the program holds, it does not panic. -/
theorem C85_simple_main : Examples.Simple.main = .ok () := by decide +kernel

theorem unwrapParsed_ok (d : Duration) : Examples.unwrapParsed (.ok d) = .ok d := rfl
theorem unwrapParsed_fail (e : ParseError) : Examples.unwrapParsed (fail e) = panic .unwrap := rfl

theorem default_result (s : Bytes) (hs : IsText s) :
    (∃ d, DurationParser.new.parse s = .ok d ∧ d.WF) ∨ ∃ e, DurationParser.new.parse s = fail e := by
  rw [C34_constructors.1]
  exact C56_no_panic _ [] s hs ⟨defaultConfig_text.inner, defaultConfig_text.outer, by intro ws h; cases h⟩

/-- C85, clap_builder.rs and clap_derive.rs: the programs print the duration of the argument, and for two arguments the sum of their
durations or the maximum; they panic exactly if one of the arguments is not a duration. -/
theorem C85_clap_main (s t : Bytes) (hs : IsText s) (ht : IsText t) :
    (∀ d, Examples.Clap.main s none = .ok d ↔ DurationParser.new.parse s = .ok d) ∧
    (∀ x, (∃ d, Examples.Clap.main s (some t) = .ok d ∧ d.WF ∧ nanos d = x) ↔
      ∃ a b, DurationParser.new.parse s = .ok a ∧ DurationParser.new.parse t = .ok b ∧ x = min maxNanos (nanos a + nanos b)) ∧
    ((∃ e, DurationParser.new.parse s = fail e) ↔ Examples.Clap.main s none = panic .unwrap) ∧
    ((∃ e, DurationParser.new.parse s = fail e ∨ DurationParser.new.parse t = fail e) ↔
      Examples.Clap.main s (some t) = panic .unwrap) := by
  have nonneg : ∀ {s : Bytes} {d : Duration}, DurationParser.new.parse s = .ok d → 0 ≤ nanos d := fun h =>
    (C22_nonnegative DurationParser.new.config DurationParser.new.timeUnits.like none none _ _ rfl h).2
  have m1 : Examples.Clap.main s none = Examples.unwrapParsed (DurationParser.new.parse s) := rfl
  have m2 : Examples.Clap.main s (some t) = Examples.unwrapParsed (DurationParser.new.parse s) >>= fun a =>
      Examples.unwrapParsed (DurationParser.new.parse t) >>= fun b => liftP (a.saturatingAdd b) := rfl
  rw [m1, m2]
  rcases default_result s hs with ⟨a, ha, wa⟩ | ⟨e, he⟩
  · rcases default_result t ht with ⟨b, hb, wb⟩ | ⟨e, he⟩
    · obtain ⟨c, hc, wc, ec⟩ := C02_saturating_add a b wa wb
      have e1 : clamp (nanos a + nanos b) = min maxNanos (nanos a + nanos b) := by
        have := nonneg ha
        have := nonneg hb
        unfold clamp
        have : (0:Int) ≤ maxNanos := by decide
        omega
      rw [ha, hb]
      simp only [unwrapParsed_ok, ok_bind, hc]
      refine ⟨fun d => trivial, fun x => ?_, ?_, ?_⟩
      · constructor
        · rintro ⟨d, h1, h2, rfl⟩; cases h1; exact ⟨a, b, rfl, rfl, ec.trans e1⟩
        · rintro ⟨a', b', h1, h2, rfl⟩; cases h1; cases h2; exact ⟨c, rfl, wc, ec.trans e1⟩
      · exact ⟨(fun ⟨e, h⟩ => by cases h), (fun h => by cases h)⟩
      · exact ⟨(fun ⟨e, h⟩ => by rcases h with h | h <;> cases h), (fun h => by cases h)⟩
    · rw [ha, he]
      simp only [unwrapParsed_ok, ok_bind, unwrapParsed_fail]
      refine ⟨fun d => trivial, fun x => ?_, ?_, ?_⟩
      · constructor
        · rintro ⟨d, h1, -⟩; cases h1
        · rintro ⟨a', b', h1, h2, -⟩; cases h2
      · exact ⟨(fun ⟨e, h⟩ => by cases h), (fun h => by cases h)⟩
      · exact ⟨fun _ => rfl, fun _ => ⟨e, Or.inr rfl⟩⟩
  · rw [he]
    simp only [unwrapParsed_fail]
    refine ⟨fun d => ?_, fun x => ?_, ?_, ?_⟩
    · constructor <;> (intro h; cases h)
    · constructor
      · rintro ⟨d, h1, -⟩; cases h1
      · rintro ⟨a', b', h1, -⟩; cases h1
    · exact ⟨fun _ => trivial, fun _ => ⟨e, rfl⟩⟩
    · exact ⟨fun _ => rfl, fun _ => ⟨e, Or.inl rfl⟩⟩

example : Examples.Clap.main (b! "1.5h") (some (b! "30m")) = .ok ⟨false, ⟨7200, 0⟩⟩ ∧
    Examples.Clap.main (b! "inf") (some (b! "1s")) = .ok Duration.MAX ∧ Examples.Clap.main (b! "1.5h") (some (b! "30 m")) = panic .unwrap := by
  decide +kernel

theorem numSeconds_eq (c : ChronoDuration) (h : c.WF) : c.numSeconds = (chronoNanos c).tdiv 1000000000 := by
  obtain ⟨h1, h2, -⟩ := h
  obtain ⟨s, n⟩ := c
  unfold ChronoDuration.numSeconds chronoNanos
  simp only at *
  split
  · rename_i h
    obtain ⟨m, hm⟩ : ∃ m : Int, s * 1000000000 + n = -m ∧ 0 ≤ m := ⟨-(s * 1000000000 + n), by omega, by omega⟩
    rw [hm.1, Int.neg_tdiv, Int.tdiv_eq_ediv_of_nonneg hm.2]
    omega
  · rename_i h
    by_cases hs : s < 0
    · have : n = 0 := by omega
      subst this
      obtain ⟨m, hm⟩ : ∃ m : Int, s = -m ∧ 0 ≤ m := ⟨-s, by omega, by omega⟩
      have e : s * 1000000000 + 0 = -(m * 1000000000) := by omega
      rw [e, Int.neg_tdiv, Int.tdiv_eq_ediv_of_nonneg (by omega)]
      omega
    · rw [Int.tdiv_eq_ediv_of_nonneg (by omega)]
      omega

/-- C85, chrono.rs of fundu-gnu: the program prints the whole seconds of the relative time (rounded towards zero), at most 2^63 - 1
milliseconds, and in the last line the overflow error instead if the limit is exceeded. -/
theorem C85_chrono_main (now : DateTime) (input : Bytes) (d : Duration) (h : Gnu.parse now input = .ok d) (hw : d.WF) :
    ∃ out, Examples.Chrono.main now input = .ok out ∧
      out.saturating = (max (-((2 ^ 63 - 1) * 10 ^ 6)) (min ((2 ^ 63 - 1) * 10 ^ 6) (nanos d))).tdiv (10 ^ 9) ∧
      (|nanos d| ≤ (2 ^ 63 - 1) * 10 ^ 6 → out.exact = .ok ((nanos d).tdiv (10 ^ 9)) ∧ out.saturating = (nanos d).tdiv (10 ^ 9)) ∧
      ((2 ^ 63 - 1) * 10 ^ 6 < nanos d → out.exact = .error .positiveOverflow) ∧
      (nanos d < -((2 ^ 63 - 1) * 10 ^ 6) → out.exact = .error .negativeOverflow) := by
  obtain ⟨c, h1, h2, h3⟩ := C09_saturating_to_chrono d hw
  obtain ⟨r, g1, g2, g3, g4⟩ := C09_to_chrono d hw
  have e1 : chronoNanos ChronoDuration.MIN = -((2 ^ 63 - 1) * 10 ^ 6) := by decide
  have e2 : chronoNanos ChronoDuration.MAX = (2 ^ 63 - 1) * 10 ^ 6 := by decide
  rw [e1, e2] at h3 g2
  rw [e1] at g3
  rw [e2] at g4
  refine ⟨⟨c.numSeconds, Examples.Chrono.secondsOf r⟩, ?_, ?_, fun ha => ?_, fun ha => ?_, fun ha => ?_⟩
  · unfold Examples.Chrono.main
    rw [h, ok_bind, h1, g1]
    rfl
  · rw [numSeconds_eq c h2, h3]; rfl
  · have ha' := abs_le.1 ha
    obtain ⟨c', rfl, k1, k2⟩ := g2 ha'
    refine ⟨?_, ?_⟩
    · show Except.ok c'.numSeconds = _
      rw [numSeconds_eq c' k1, k2]; rfl
    · show c.numSeconds = _
      rw [numSeconds_eq c h2, h3, min_eq_right ha'.2, max_eq_right ha'.1]; rfl
  · rw [g4 ha]; rfl
  · rw [g3 ha]; rfl

/-- the hypothesis holds for every date, e.g. on the first day of 1970 -/
example : Gnu.parse ⟨2440588, 0⟩ (b! "-1.5 seconds 3 days ago") = .ok ⟨true, ⟨259201, 500000000⟩⟩ ∧
    (Examples.Chrono.main ⟨2440588, 0⟩ (b! "-1.5 seconds 3 days ago")).toOption.map (·.saturating) = some (-259201) ∧
    (Examples.Chrono.main ⟨2440588, 0⟩ (b! "9223372036854776 seconds")).toOption.map (·.saturating) = some 9223372036854775 := by
  decide +kernel

end Fundu.Props
