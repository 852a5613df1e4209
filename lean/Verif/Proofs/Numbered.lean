import Verif.Spec.Numbered
import Verif.Proofs.Negated
/-!
# Texts in which each word has a number in front don't need `number_is_optional`
-/
namespace Fundu.Numbered
open Fundu Fundu.Spec

/-- parsers like the one of fundu-systemd -/
structure Setup (cfg : Config) (units : TimeUnitsLike) : Prop where
  same : cfg.outerDelimiter = cfg.innerDelimiter
  unitDelimiter : cfg.allowTimeUnitDelimiter = true
  signDelimiter : cfg.allowSignDelimiter = false
  ago : cfg.allowAgo = false
  infinity : cfg.disableInfinity = true
  conjunctions : cfg.conjunctions.getD [] = []
  empty : units.isEmpty = false
  delims : ∀ b, cfg.innerDelimiter b = true → ¬ IsDigit b ∧ b ≠ 43 ∧ b ≠ 45 ∧ b ≠ 46
  words : ∀ w u, units.get w = some u → ∀ b ∈ w, LetterByte (cfg.innerDelimiter · = true) b

/-- the same configuration without bare time units -/
abbrev strict (cfg : Config) : Config := { cfg with numberIsOptional := false }

variable {cfg : Config} {units : TimeUnitsLike} {s r : Bytes}

theorem sign {neg : Bool} (h : SignPart cfg s neg r) : SignPart (strict cfg) s neg r := by
  cases h with
  | absent a b => exact .absent a b
  | plus a b => exact .plus a b
  | minus a b => exact .minus a b

theorem fraction {W F : Bytes} (h : FractionPart cfg W s F r) : FractionPart (strict cfg) W s F r := by
  cases h with
  | absent a b => exact .absent a b
  | present a b c => exact .present a b c

theorem exponent {e : Int} (h : ExponentPart cfg s e r) : ExponentPart (strict cfg) s e r := by
  cases h with
  | absent a => exact .absent a
  | present a b c d e f => exact .present a b c d e f

theorem number {W F : Bytes} {e : Int} (h : NumberText cfg s W F e r) : NumberText (strict cfg) s W F e r := by
  obtain ⟨r1, r2, h1, h2, h3⟩ := h
  exact ⟨r1, r2, h1, fraction h2, exponent h3⟩

theorem connection (h : Connection cfg s r) : Connection (strict cfg) s r := by
  cases h with
  | absent a => exact .absent a
  | delims a b c d => exact .delims a b c d
  | conjunction a b c d e f g h => exact .conjunction a b c d e f g h

theorem ago {m m' : Multiplier} (h : AgoPart cfg s m m' r) : AgoPart (strict cfg) s m m' r := by
  cases h with
  | absent a => exact .absent a
  | other a b c d e => exact .other a b c d e
  | ago a b c d => exact .ago a b c d

theorem unitMulti {u} (h : UnitMulti cfg units s u r) : UnitMulti (strict cfg) units s u r := by
  obtain ⟨h1, h2, h3⟩ := h
  exact ⟨h1, ago h2, connection h3⟩

/-- what is in front of the rest of a text between two durations -/
def Good (cfg : Config) (units : TimeUnitsLike) (pre r : Bytes) : Prop :=
  pre = [] ∨ (∃ p x sp, pre = p ++ x :: sp ∧ LetterByte (cfg.innerDelimiter · = true) x ∧ (∀ y ∈ sp, cfg.innerDelimiter y = true) ∧
    (sp = [] → ∀ b l, r = b :: l → ¬ LetterByte (cfg.innerDelimiter · = true) b)) ∨ ¬ ∃ u t, WordIn (UnitEnd cfg) units r u t

theorem wordIn_front (H : Setup cfg units) {u} (h : WordIn (UnitEnd cfg) units s u r) :
    ∃ b l, s = b :: l ∧ LetterByte (cfg.innerDelimiter · = true) b := by
  obtain ⟨w, h1, h2, h3⟩ := h
  cases w with
  | nil => exact absurd rfl h2
  | cons b l => exact ⟨b, l ++ r, h1.1, H.words _ _ h3 b (by simp)⟩

theorem last_unique {d : UInt8 → Prop} {p p' sp sp' : Bytes} {x x' : UInt8} (h : p ++ x :: sp = p' ++ x' :: sp') (hx : ¬ d x)
    (hx' : ¬ d x') (hs : ∀ y ∈ sp, d y) (hs' : ∀ y ∈ sp', d y) : x = x' := by
  rcases List.append_eq_append_iff.1 h with ⟨a, h1, h2⟩ | ⟨a, h1, h2⟩
  · cases a with
    | nil => simp at h2; exact h2.1
    | cons c a =>
      obtain ⟨-, h3⟩ := List.cons.inj h2
      exact absurd (hs x' (by rw [h3]; simp)) hx'
  · cases a with
    | nil => simp at h2; exact h2.1.symm
    | cons c a =>
      obtain ⟨-, h3⟩ := List.cons.inj h2
      exact absurd (hs' x (by rw [h3]; simp)) hx

/-- no time unit without a number -/
theorem not_bare (H : Setup cfg units) {whole pre : Bytes} {neg : Bool} (hn : NumberedWords (cfg.innerDelimiter · = true) whole)
    (he : whole = pre ++ s) (hg : Good cfg units pre s) (hs : SignPart cfg s neg r) : ¬ ∃ u t, WordIn (UnitEnd cfg) units r u t := by
  rintro ⟨u, t, hw⟩
  obtain ⟨b, l, rfl, hb⟩ := wordIn_front H hw
  have signed : ∀ c, (c = 43 ∨ c = 45) → s = c :: b :: l → False := by
    rintro c hc rfl
    have hc' : ¬ (IsDigit c ∨ c = 46) ∧ cfg.innerDelimiter c ≠ true := by
      constructor
      · rcases hc with rfl | rfl <;> decide
      · intro h
        obtain ⟨-, h1, h2, -⟩ := H.delims c h
        rcases hc with h | h
        · exact h1 h
        · exact h2 h
    obtain ⟨p, x, sp, h1, h2, h3⟩ := hn (pre ++ [c]) b l (by rw [he]; simp) hb (by
      intro p x h
      obtain ⟨-, h⟩ := List.append_inj' h rfl
      cases h
      rintro ⟨-, h1, h2, -⟩
      rcases hc with h | h
      · exact h1 h
      · exact h2 h)
    rcases List.eq_nil_or_concat sp with rfl | ⟨sp', y, rfl⟩
    · obtain ⟨-, h⟩ := List.append_inj' h1 rfl
      cases h
      exact hc'.1 h2
    · have h1 : pre ++ [c] = (p ++ x :: sp') ++ [y] := by rw [h1]; simp
      obtain ⟨-, h⟩ := List.append_inj' h1 rfl
      cases h
      exact hc'.2 (h3 c (by simp))
  cases hs with
  | plus h => 
    rw [H.signDelimiter] at h
    obtain rfl : _ = _ := h
    exact signed 43 (Or.inl rfl) rfl
  | minus h =>
    rw [H.signDelimiter] at h
    obtain rfl : _ = _ := h
    exact signed 45 (Or.inr rfl) rfl
  | absent _ _ =>
    rcases hg with rfl | ⟨p, x, sp, rfl, hx, hsp, hr⟩ | hg
    · obtain ⟨p, c, sp, h, -⟩ := hn [] b l he hb (by intro p c h; simp at h)
      simp at h
    · have hsn : sp ≠ [] := fun h => hr h b l rfl hb
      obtain ⟨p', c, sp', h1, h2, h3⟩ := hn (p ++ x :: sp) b l he hb (by
        intro p' c h
        rcases List.eq_nil_or_concat sp with h | ⟨sp', y, rfl⟩
        · exact absurd h hsn
        · have h : (p ++ x :: sp') ++ [y] = p' ++ [c] := by rw [← h]; simp
          obtain ⟨-, h⟩ := List.append_inj' h rfl
          cases h
          rintro ⟨-, -, -, -, h⟩
          exact h (hsp c (by simp)))
      have hc : cfg.innerDelimiter c ≠ true := by
        intro h
        obtain ⟨h1, -, -, h4⟩ := H.delims c h
        rcases h2 with h | h
        · exact h1 h
        · exact h4 h
      obtain rfl := last_unique h1 hx.2.2.2.2 hc hsp h3
      rcases h2 with h | h
      · exact hx.1 h
      · exact hx.2.2.2.1 h
    · exact hg ⟨u, t, hw⟩

theorem connection_cases (H : Setup cfg units) (h : Connection cfg s r) :
    (r = s ∧ ¬ StartsWith (cfg.innerDelimiter · = true) s) ∨ ∃ sp, sp ≠ [] ∧ s = sp ++ r ∧ ∀ y ∈ sp, cfg.innerDelimiter y = true := by
  cases h with
  | absent a => rw [H.same] at a; exact Or.inl ⟨rfl, a⟩
  | delims a b => rw [H.same] at a; exact Or.inr ⟨_, b, a.1, a.2.1⟩
  | conjunction a b c => rw [H.conjunctions] at c; simp at c

/-- what is in front of the next duration -/
theorem unit_good (H : Setup cfg units) {pre : Bytes} {u} (h : UnitMulti cfg units s u r) :
    ∃ pre', pre ++ s = pre' ++ r ∧ Good cfg units pre' r := by
  obtain ⟨⟨w, h1, h2, h3⟩, h4, h5⟩ := h
  cases h4 with
  | other a => rw [H.ago] at a; cases a
  | ago a => rw [H.ago] at a; cases a
  | absent _ =>
    rcases List.eq_nil_or_concat w with h | ⟨w', x, rfl⟩
    · exact absurd h h2
    have hx := H.words _ _ h3 x (by simp)
    rcases connection_cases H h5 with ⟨rfl, h6⟩ | ⟨sp, h6, rfl, h7⟩
    · refine ⟨pre ++ w' ++ [x], by rw [h1.1]; simp, Or.inr (Or.inl ⟨pre ++ w', x, [], rfl, hx, (by simp), fun _ b l hb hl => ?_⟩)⟩
      refine h1.2.2 ⟨b, l, hb, ?_⟩
      rintro (⟨-, h⟩ | h | h | h | h)
      · exact hl.2.2.2.2 h
      · rw [H.same] at h; exact hl.2.2.2.2 h
      · exact hl.1 h
      · exact hl.2.1 h
      · exact hl.2.2.1 h
    · exact ⟨pre ++ w' ++ x :: sp, by rw [h1.1]; simp, Or.inr (Or.inl ⟨pre ++ w', x, sp, rfl, hx, h7, fun h => absurd h h6⟩)⟩

theorem multi (H : Setup cfg units) {pre : Bytes} {item : Item} (hb : ¬ ∃ u t, WordIn (UnitEnd cfg) units s u t)
    (h : MultiText cfg units none none s item r) :
    MultiText (strict cfg) units none none s item r ∧ ∃ pre', pre ++ s = pre' ++ r ∧ (r ≠ [] → Good cfg units pre' r) := by
  cases h with
  | numberEnd a => exact ⟨.numberEnd (number a), pre ++ s, by simp, fun h => absurd rfl h⟩
  | numberUnit a b c d =>
    obtain ⟨x, hx⟩ := Fundu.Props.Negated.number_suffix a
    obtain ⟨y, hy⟩ := Fundu.Props.Negated.afterDelims_suffix b
    obtain ⟨pre', h1, h2⟩ := unit_good H (pre := pre ++ x ++ y) d
    exact ⟨.numberUnit (number a) b c (unitMulti d), pre', by rw [← h1, ← hx, ← hy]; simp, fun _ => h2⟩
  | @number _ _ _ r1 r2 _ a b c d e =>
    obtain ⟨x, hx⟩ := Fundu.Props.Negated.number_suffix a
    obtain ⟨y, hy⟩ := Fundu.Props.Negated.afterDelims_suffix b
    have hc : ¬ StartsWith (cfg.innerDelimiter · = true) r2 := by
      rw [H.unitDelimiter] at b
      obtain ⟨ds, b⟩ := b
      exact b.2.2
    rcases connection_cases H e with ⟨rfl, -⟩ | ⟨sp, h6, rfl, h7⟩
    · exact ⟨.number (number a) b c d (connection e), pre ++ x ++ y, by rw [← hx, ← hy]; simp, fun _ => Or.inr (Or.inr (d H.empty))⟩
    · cases sp with
      | nil => exact absurd rfl h6
      | cons z l => exact absurd ⟨z, l ++ r, rfl, h7 z (by simp)⟩ hc
  | inf a => rw [H.infinity] at a; cases a
  | infinity a => rw [H.infinity] at a; cases a
  | keyword _ a => cases a
  | unit _ _ _ d =>
    obtain ⟨h1, -, -⟩ := d
    exact absurd ⟨_, _, h1⟩ hb
  | numeral _ _ _ a => cases a

theorem durations (H : Setup cfg units) {whole : Bytes} (hn : NumberedWords (cfg.innerDelimiter · = true) whole)
    {l : List (Bool × Item)} (h : Durations cfg units none none s l) :
    ∀ pre, whole = pre ++ s → Good cfg units pre s → Durations (strict cfg) units none none s l := by
  induction h with
  | last h1 h2 =>
    intro pre he hg
    exact .last (sign h1) (multi H (pre := pre) (not_bare H hn he hg h1) h2).1
  | @more s neg r item rest l h1 h2 h3 _ ih =>
    intro pre he hg
    have hs : ∃ x, s = x ++ r := by
      cases h1 with
      | absent => exact ⟨[], rfl⟩
      | @plus a _ h => obtain ⟨y, hy⟩ := Fundu.Props.Negated.afterDelims_suffix h; exact ⟨43 :: y, by rw [← hy]; rfl⟩
      | @minus a _ h => obtain ⟨y, hy⟩ := Fundu.Props.Negated.afterDelims_suffix h; exact ⟨45 :: y, by rw [← hy]; rfl⟩
    obtain ⟨x, rfl⟩ := hs
    obtain ⟨g1, pre', g2, g3⟩ := multi H (pre := pre ++ x) (not_bare H hn he hg h1) h2
    exact .more (sign h1) g1 h3 (ih pre' (by rw [he, ← g2]; simp) (g3 h3))

end Fundu.Numbered
