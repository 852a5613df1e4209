import Verif.Proofs.GnuRespaced
import Verif.Props.Concat
import Verif.Props.GnuTexts
import Verif.Props.SumSign
/-!
# Property C81: the length and kind of gaps does not matter

The specification is `Verif/Spec/Respaced.lean`.
-/
namespace Fundu.Props
open Fundu Fundu.Spec

section
variable (cfg : Config) (units : TimeUnitsLike) (keywords : Option TimeUnitsLike) (numerals : Option NumbersLike)

/-- C81, a single duration: texts which differ only in their gaps have the same result, or both are rejected. -/
theorem C81_single (s t : Bytes) (hs : IsText s) (ht : IsText t) (hc : CfgText cfg) (hm : cfg.allowMultiple = false)
    (ho : Orderly cfg units keywords numerals) (h1 : OneDelimiter cfg)
    (h : Respaced (cfg.innerDelimiter · = true) s t) (d : Duration) :
    parse cfg units keywords numerals s = .ok d ↔ parse cfg units keywords numerals t = .ok d := by
  rw [C27_single cfg units keywords numerals s d hs hc hm, C27_single cfg units keywords numerals t d ht hc hm]
  exact ⟨fun g => Respaced.denotesSingle ho h1 g h, fun g => Respaced.denotesSingle ho h1 g (Respaced.symm h)⟩

/-- C81, a single duration or several: texts which differ only in their gaps have the same result, or both are rejected. -/
theorem C81_texts (s t : Bytes) (hs : IsText s) (ht : IsText t) (hc : CfgText cfg)
    (ho : Orderly cfg units keywords numerals) (h1 : OneDelimiter cfg) (hp : PlainConjunctions cfg)
    (h : Respaced (cfg.innerDelimiter · = true) s t) (d : Duration) :
    parse cfg units keywords numerals s = .ok d ↔ parse cfg units keywords numerals t = .ok d := by
  cases hm : cfg.allowMultiple with
  | false => exact C81_single cfg units keywords numerals s t hs ht hc hm ho h1 h d
  | true =>
    have hd : ∀ b, cfg.innerDelimiter b = true → cfg.outerDelimiter b = true := fun b hb => by rw [← h1.same]; exact hb
    rw [C99_exact cfg units keywords numerals s d hs hc hm (Or.inl hd), C99_exact cfg units keywords numerals t d ht hc hm (Or.inl hd)]
    exact ⟨fun ⟨l, g1, g2⟩ => ⟨l, Respaced.denotesMultiple ho h1 hp g1 h, g2⟩,
      fun ⟨l, g1, g2⟩ => ⟨l, Respaced.denotesMultiple ho h1 hp g1 (Respaced.symm h), g2⟩⟩

/-- C81 for one gap: a gap can be replaced by any other one without a change of the result. -/
theorem C81_one_gap (a x y c : Bytes) (hs : IsText (a ++ (x ++ c))) (ht : IsText (a ++ (y ++ c))) (hc : CfgText cfg)
    (ho : Orderly cfg units keywords numerals) (h1 : OneDelimiter cfg) (hp : PlainConjunctions cfg)
    (hx : ∀ b ∈ x, cfg.innerDelimiter b = true) (hx0 : x ≠ []) (hy : ∀ b ∈ y, cfg.innerDelimiter b = true) (hy0 : y ≠ [])
    (d : Duration) :
    parse cfg units keywords numerals (a ++ (x ++ c)) = .ok d ↔ parse cfg units keywords numerals (a ++ (y ++ c)) = .ok d :=
  C81_texts cfg units keywords numerals _ _ hs ht hc ho h1 hp (Respaced.replace hx hx0 hy hy0) d

end

/-! ## DurationParser -/

theorem whitespace_one (cfg : Config) (h1 : cfg.innerDelimiter = isAsciiWhitespace) (h2 : cfg.outerDelimiter = isAsciiWhitespace) :
    OneDelimiter cfg := by
  refine ⟨fun b => by rw [h1, h2], fun b hb => ?_⟩
  rw [h1] at hb
  have key : ∀ n < 256, isAsciiWhitespace (UInt8.ofNat n) = true → UInt8.ofNat n ≠ 43 ∧ UInt8.ofNat n ≠ 45 := by decide +kernel
  have := key b.toNat b.toNat_lt
  rw [UInt8.ofNat_toNat] at this
  exact this hb

/-- C81 for `DurationParser` with any time units and all settings except the delimiters, which are white space: a gap can be replaced by any other one
without a change of the result. -/
theorem C81_standard (us : List TimeUnit) (cfg : Config) (hc : CfgText cfg) (hi : cfg.innerDelimiter = isAsciiWhitespace)
    (ho : cfg.outerDelimiter = isAsciiWhitespace) (hp : PlainConjunctions cfg) (a x y c : Bytes) (hs : IsText (a ++ (x ++ c)))
    (ht : IsText (a ++ (y ++ c))) (hx : ∀ b ∈ x, isAsciiWhitespace b = true) (hx0 : x ≠ [])
    (hy : ∀ b ∈ y, isAsciiWhitespace b = true) (hy0 : y ≠ []) (d : Duration) :
    ({ DurationParser.withTimeUnits us with config := cfg } : DurationParser).parse (a ++ (x ++ c)) = .ok d ↔
      ({ DurationParser.withTimeUnits us with config := cfg } : DurationParser).parse (a ++ (y ++ c)) = .ok d :=
  C81_one_gap cfg _ none none a x y c hs ht hc (standard_orderly cfg us (whitespace_delimiters cfg hi ho))
    (whitespace_one cfg hi ho) hp (by rw [hi]; exact hx) hx0 (by rw [hi]; exact hy) hy0 d

/-! ## fundu-systemd -/

theorem systemd_one (u : TimeUnit) : OneDelimiter (Systemd.TimeSpanParser.withDefaultUnit u).config := by
  refine ⟨fun b => rfl, fun b hb => ?_⟩
  have := Respaced.space_sign b ((systemd_delimiter b).1 hb)
  exact ⟨fun h => this (Or.inl h), fun h => this (Or.inr h)⟩

/-- C81 for fundu-systemd, with and without nano seconds, for every default unit and maximum: texts which differ only in their gaps have the
same result, or both are rejected. -/
theorem C81_systemd (nanos' : Bool) (u : TimeUnit) (s t : Bytes) (hs : IsText s) (ht : IsText t) (max : Duration)
    (h : Respaced PosixSpace s t) (d : Duration) :
    parseMax nanos' (Systemd.TimeSpanParser.withDefaultUnit u) s max = .ok d ↔
      parseMax nanos' (Systemd.TimeSpanParser.withDefaultUnit u) t max = .ok d := by
  cases hm : max.isNegative with
  | true => rw [C38_negative_max nanos' _ s max hm, C38_negative_max nanos' _ t max hm]
  | false =>
    obtain ⟨m1, h1, h2, h3⟩ := parseMax_eq nanos' (Systemd.TimeSpanParser.withDefaultUnit u) s max hm hs
    obtain ⟨m2, h1', h2', h3'⟩ := parseMax_eq nanos' (Systemd.TimeSpanParser.withDefaultUnit u) t max hm ht
    obtain ⟨m', k1, k2⟩ := Respaced.trimmed h1 h
    obtain rfl := trimmed_unique k1 h1'
    rw [h3, h3']
    have inf : ∀ {a b : Bytes}, Respaced PosixSpace a b → a = b! "infinity" → b = b! "infinity" := by
      rintro a b h rfl
      have : ∀ b ∈ b! "infinity", ¬ PosixSpace b := by decide
      have e : Respaced PosixSpace (b! "infinity" ++ []) b := by rw [List.append_nil]; exact h
      obtain ⟨r, e1, e2⟩ := Respaced.append e this
      rw [e1, Respaced.nil e2, List.append_nil]
    by_cases hi : m1 = b! "infinity"
    · rw [if_pos hi, if_pos (inf k2 hi)]
    · rw [if_neg hi, if_neg fun g => hi (inf (Respaced.symm k2) g)]
      have hsame : Respaced ((Systemd.TimeSpanParser.withDefaultUnit u).config.innerDelimiter · = true) m1 m' := by
        have : (fun b => (Systemd.TimeSpanParser.withDefaultUnit u).config.innerDelimiter b = true) = PosixSpace :=
          funext fun b => propext (systemd_delimiter b)
        rw [this]
        exact k2
      have key := C81_texts (Systemd.TimeSpanParser.withDefaultUnit u).config (tableOf nanos') none none m1 m' h2 h2' (systemd_cfgText u)
        (systemd_orderly nanos' u) (systemd_one u) (by intro w hw; cases hw) hsame
      have one : ∀ {x y : R Duration} {g : Duration → Duration}, (∀ d, x = .ok d → y = .ok d) → x.map g = .ok d → y.map g = .ok d := by
        intro x y g h hx
        cases x with
        | error e => cases hx
        | ok a => rw [h a rfl]; exact hx
      exact ⟨one fun d => (key d).1, one fun d => (key d).2⟩

/-! ## fundu-gnu -/

/-- C81 for fundu-gnu: texts which differ only in their gaps have the same result, or both are rejected. -/
theorem C81_gnu (s t : Bytes) (hs : IsText s) (ht : IsText t) (h : Respaced PosixSpace s t) (y m x : Int) :
    (∃ d, Gnu.parseFuzzy s = .ok (y, m, d) ∧ d.WF ∧ nanos d = x) ↔
      ∃ d, Gnu.parseFuzzy t = .ok (y, m, d) ∧ d.WF ∧ nanos d = x := by
  have key : ∀ s t : Bytes, Respaced PosixSpace s t →
      (∃ m' l, Trimmed s m' ∧ RelativeTime m' l ∧ gnuTotal l = ⟨y, m, x⟩) →
      ∃ m' l, Trimmed t m' ∧ RelativeTime m' l ∧ gnuTotal l = ⟨y, m, x⟩ := by
    rintro s t h ⟨m', l, h1, h2, h3⟩
    obtain ⟨m'', k1, k2⟩ := Respaced.trimmed h1 h
    exact ⟨m'', l, k1, Respaced.gnu_relative h2 k2, h3⟩
  rw [C60_parse_fuzzy s hs, C60_parse_fuzzy t ht]
  exact ⟨key s t h, key t s (Respaced.symm h)⟩

/-! ## Concrete cases -/

def gapParser : DurationParser := { DurationParser.new with config := { allowMultiple := true, allowTimeUnitDelimiter := true, allowSignDelimiter := true } }

example : gapParser.parse (b! "+ 1\th 2 m") = .ok ⟨false, ⟨3720, 0⟩⟩ ∧ gapParser.parse (b! "+\n  1  h\r\n\n2\tm") = .ok ⟨false, ⟨3720, 0⟩⟩ := by
  decide +kernel

example (d : Duration) : gapParser.parse (b! "1" ++ (b! " " ++ b! "h 2m")) = .ok d ↔
    gapParser.parse (b! "1" ++ (b! "\t\n " ++ b! "h 2m")) = .ok d :=
  C81_standard [.nanoSecond, .microSecond, .milliSecond, .second, .minute, .hour, .day, .week] gapParser.config
    ⟨defaultConfig_text.inner, defaultConfig_text.outer, by intro ws h; cases h⟩ rfl rfl (by intro w hw; cases hw)
    _ _ _ _ (isText_ascii (by decide)) (isText_ascii (by decide)) (by decide) (by decide) (by decide) (by decide) d

example : Respaced PosixSpace (b! " 2 weeks ago") (b! "\t2\n\nweeks   ago") :=
  .gap (x := b! " ") (y := b! "\t") (by decide) (by decide) (by decide) (by decide)
    (by rw [startsWith_cons]; decide) (by rw [startsWith_cons]; decide)
    (.same (by decide) (.gap (x := b! " ") (y := b! "\n\n") (by decide) (by decide) (by decide) (by decide)
      (by rw [startsWith_cons]; decide) (by rw [startsWith_cons]; decide)
      (Respaced.prepend (b! "weeks") (.gap (x := b! " ") (y := b! "   ") (by decide) (by decide) (by decide) (by decide)
        (by rw [startsWith_cons]; decide) (by rw [startsWith_cons]; decide) (Respaced.refl (b! "ago"))))))

example : Gnu.parseFuzzy (b! " 2 weeks ago") = .ok (0, 0, ⟨true, ⟨1209600, 0⟩⟩) ∧
    Gnu.parseFuzzy (b! "\t2\n\nweeks   ago") = .ok (0, 0, ⟨true, ⟨1209600, 0⟩⟩) := by decide +kernel

/-- but a gap can not be left out -/
example : Gnu.parseFuzzy (b! "1 week day") = .ok (0, 0, ⟨false, ⟨691200, 0⟩⟩) ∧
    (Gnu.parseFuzzy (b! "1 weekday")).toBool = false := by decide +kernel

end Fundu.Props
