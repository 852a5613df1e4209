import Verif.Proofs.GnuWords
/-!
# Property C41: the words of gnu relative times
-/
namespace Fundu.Props
open Fundu Fundu.Spec

theorem gnu_units_get (id : Bytes) : Gnu.TIME_UNITS.get id = Gnu.look Gnu.unitTable (id.map lower) := by
  show Gnu.found (Gnu.timeUnitsGet id) = _
  rw [Gnu.timeUnitsGet_eq]; rfl

theorem gnu_keywords_get (id : Bytes) : Gnu.TIME_KEYWORDS.get id = Gnu.look Gnu.keywordTable (id.map lower) := by
  show Gnu.found (Gnu.timeKeywordsGet id) = _
  rw [Gnu.timeKeywordsGet_eq]; rfl

theorem gnu_numerals_get (id : Bytes) : Gnu.NUMERALS id = Gnu.look Gnu.numeralTable (id.map lower) := by
  show Gnu.found (Gnu.numeralsGet id) = _
  rw [Gnu.numeralsGet_eq]; rfl

/-- C41: looking up a word of any length and any bytes never panics. -/
theorem C41_no_panic (id : Bytes) :
    (∃ o, Gnu.timeUnitsGet id = .ok o) ∧ (∃ o, Gnu.timeKeywordsGet id = .ok o) ∧ (∃ o, Gnu.numeralsGet id = .ok o) :=
  ⟨⟨_, Gnu.timeUnitsGet_eq id⟩, ⟨_, Gnu.timeKeywordsGet_eq id⟩, ⟨_, Gnu.numeralsGet_eq id⟩⟩

theorem unitMeans_unique {u : TimeUnit × Multiplier} {a b : GnuLength} (ha : UnitMeans u a) (hb : UnitMeans u b) : a = b := by
  obtain ⟨u, m⟩ := u
  cases a <;> cases b
  · have h1 := ha.2.2
    have h2 := hb.2.2
    rw [h1] at h2
    injection h2 with h2
    rw [h2]
  · exact absurd (congrArg Prod.fst hb) ha.1
  · exact absurd (congrArg Prod.fst hb) ha.2.1
  · exact absurd (congrArg Prod.fst ha) hb.1
  · rfl
  · cases congrArg Prod.fst (Eq.trans (Eq.symm ha) hb)
  · exact absurd (congrArg Prod.fst ha) hb.2.1
  · cases congrArg Prod.fst (Eq.trans (Eq.symm ha) hb)
  · rfl

/-- two tables with the same content -/
theorem table_iff {table : List (Bytes × (TimeUnit × Multiplier))} {doc : List (List Bytes × GnuLength)}
    (hn : (table.map Prod.fst).Nodup)
    (h1 : ∀ p ∈ doc, ∀ name ∈ p.1, (Gnu.look table (name.map lower)).any (fun u => decide (UnitMeans u p.2)) = true)
    (h2 : ∀ e ∈ table, ∃ p ∈ doc, UnitMeans e.2 p.2 ∧ ∃ name ∈ p.1, e.1 = name.map lower)
    (id : Bytes) :
    (∀ len, GnuWord doc id len ↔ ∃ u, Gnu.look table (id.map lower) = some u ∧ UnitMeans u len) ∧
    (∀ u, Gnu.look table (id.map lower) = some u → ∃ len, UnitMeans u len ∧ GnuWord doc id len) := by
  have back : ∀ u, Gnu.look table (id.map lower) = some u → ∃ p ∈ doc, UnitMeans u p.2 ∧ GnuWord doc id p.2 := by
    intro u h
    rw [Gnu.look_some hn] at h
    obtain ⟨p, g1, g2, name, g3, g4⟩ := h2 _ h
    exact ⟨p, g1, g2, p.1, g1, name, g3, g4⟩
  refine ⟨fun len => ⟨?_, ?_⟩, fun u h => ?_⟩
  · rintro ⟨names, g1, name, g2, g3⟩
    have := h1 _ g1 name g2
    unfold SameText at g3
    rw [← g3] at this
    cases hl : Gnu.look table (id.map lower) with
    | none => rw [hl] at this; cases this
    | some u => rw [hl] at this; exact ⟨u, rfl, by simpa using this⟩
  · rintro ⟨u, g1, g2⟩
    obtain ⟨p, k1, k2, k3⟩ := back u g1
    rw [unitMeans_unique g2 k2]
    exact k3
  · obtain ⟨p, -, k2, k3⟩ := back u h
    exact ⟨p.2, k2, k3⟩

/-- C41: a word is a time unit of the parser iff, apart from the case of its letters, it is one of the documented
names, and it stands for the documented length. -/
theorem C41_units (id : Bytes) :
    (∀ len, GnuWord gnuUnits id len ↔ ∃ u, Gnu.TIME_UNITS.get id = some u ∧ UnitMeans u len) ∧
    (∀ u, Gnu.TIME_UNITS.get id = some u → ∃ len, UnitMeans u len ∧ GnuWord gnuUnits id len) := by
  rw [gnu_units_get]
  exact table_iff (by decide) (by decide) (by decide) id

/-- C41: the same for keywords. -/
theorem C41_keywords (id : Bytes) :
    (∀ len, GnuWord gnuKeywords id len ↔ ∃ u, Gnu.TIME_KEYWORDS.get id = some u ∧ UnitMeans u len) ∧
    (∀ u, Gnu.TIME_KEYWORDS.get id = some u → ∃ len, UnitMeans u len ∧ GnuWord gnuKeywords id len) := by
  rw [gnu_keywords_get]
  exact table_iff (by decide) (by decide) (by decide) id

/-- C41: `is_empty` of the tables of time units and keywords tells whether they know any word. -/
theorem C41_is_empty :
    (Gnu.TIME_UNITS.isEmpty = true ↔ ∀ id, Gnu.TIME_UNITS.get id = none) ∧
    (Gnu.TIME_KEYWORDS.isEmpty = true ↔ ∀ id, Gnu.TIME_KEYWORDS.get id = none) := by
  refine ⟨⟨fun h => absurd h (by decide), fun h => ?_⟩, ⟨fun h => absurd h (by decide), fun h => ?_⟩⟩
  · obtain ⟨u, hu, -⟩ := ((C41_units (b! "hour")).1 (.seconds 3600)).1
      ⟨[b! "hours", b! "hour"], by decide, b! "hour", by decide, rfl⟩
    rw [h] at hu; cases hu
  · obtain ⟨u, hu, -⟩ := ((C41_keywords (b! "tomorrow")).1 (.seconds 86400)).1
      ⟨[b! "tomorrow"], by decide, b! "tomorrow", by decide, rfl⟩
    rw [h] at hu; cases hu

/-- C41: a word is a numeral iff, apart from the case of its letters, it is one of the documented ones, and it stands
for the documented number. -/
theorem C41_numerals (id : Bytes) (m : Multiplier) :
    Gnu.NUMERALS id = some m ↔ m.exponent = 0 ∧ GnuNumeral id m.coefficient := by
  rw [gnu_numerals_get, Gnu.look_some (by decide)]
  have h1 : ∀ p ∈ gnuNumerals, (p.1.map lower, (⟨p.2, 0⟩ : Multiplier)) ∈ Gnu.numeralTable := by decide
  have h2 : ∀ e ∈ Gnu.numeralTable, e.2.exponent = 0 ∧ ∃ p ∈ gnuNumerals, e.2.coefficient = p.2 ∧ e.1 = p.1.map lower := by decide
  constructor
  · intro h
    obtain ⟨g1, p, g2, g3, g4⟩ := h2 _ h
    exact ⟨g1, p.1, by rw [g3]; exact g2, g4⟩
  · rintro ⟨g1, name, g2, g3⟩
    have := h1 _ g2
    unfold SameText at g3
    rw [g3]
    obtain ⟨c, e⟩ := m
    cases g1
    exact this

/-- C41: every word has at most one meaning: it has at most one length or number, and is only one of time unit, keyword
and numeral. -/
theorem C41_unambiguous (id : Bytes) :
    (∀ len len', GnuWord (gnuUnits ++ gnuKeywords) id len → GnuWord (gnuUnits ++ gnuKeywords) id len' → len = len') ∧
    (∀ n n', GnuNumeral id n → GnuNumeral id n' → n = n') ∧
    (∀ len len', GnuWord gnuUnits id len → ¬ GnuWord gnuKeywords id len') ∧
    (∀ len n, GnuWord (gnuUnits ++ gnuKeywords) id len → ¬ GnuNumeral id n) := by
  have k1 : ∀ p ∈ gnuUnits ++ gnuKeywords, ∀ p' ∈ gnuUnits ++ gnuKeywords, ∀ n ∈ p.1, ∀ n' ∈ p'.1, SameText n n' → p.2 = p'.2 := by
    decide
  have k2 : ∀ p ∈ gnuUnits ++ gnuKeywords, ∀ n ∈ p.1, ∀ q ∈ gnuNumerals, ¬ SameText n q.1 := by decide
  have k3 : ∀ p ∈ gnuNumerals, ∀ q ∈ gnuNumerals, SameText p.1 q.1 → p.2 = q.2 := by decide
  have k4 : ∀ p ∈ gnuUnits, ∀ p' ∈ gnuKeywords, ∀ n ∈ p.1, ∀ n' ∈ p'.1, ¬ SameText n n' := by decide
  refine ⟨?_, ?_, ?_, ?_⟩
  · rintro len len' ⟨names, g1, name, g2, g3⟩ ⟨names', h1, name', h2, h3⟩
    exact k1 _ g1 _ h1 _ g2 _ h2 (Eq.trans (Eq.symm g3) h3)
  · rintro n n' ⟨name, g1, g2⟩ ⟨name', h1, h2⟩
    exact k3 _ g1 _ h1 (Eq.trans (Eq.symm g2) h2)
  · rintro len len' ⟨names, g1, name, g2, g3⟩ ⟨names', h1, name', h2, h3⟩
    exact k4 _ g1 _ h1 _ g2 _ h2 (Eq.trans (Eq.symm g3) h3)
  · rintro len n ⟨names, g1, name, g2, g3⟩ ⟨name', h1, h2⟩
    exact k2 _ g1 _ g2 _ h1 (Eq.trans (Eq.symm g3) h2)

/-- mixed case, and a word which differs from `min` only in bit 5 of a byte which is not a letter -/
example : GnuWord gnuUnits (b! "FortNights") (.seconds 1209600) ∧ GnuWord gnuKeywords (b! "YESTERDAY") (.seconds (-86400)) ∧
    GnuNumeral (b! "Twelfth") 12 ∧ Gnu.TIME_UNITS.get [109, 105, 14] = none ∧
    Gnu.TIME_UNITS.get (b! "Year") = some (.year, ⟨1, 0⟩) := by
  refine ⟨⟨[b! "fortnights", b! "fortnight"], by decide, b! "fortnights", by decide, by decide⟩,
    ⟨[b! "yesterday"], by decide, b! "yesterday", by decide, by decide⟩, ?_⟩
  refine ⟨⟨b! "twelfth", by decide, by decide⟩, by rw [gnu_units_get]; decide, by rw [gnu_units_get]; decide⟩

end Fundu.Props
