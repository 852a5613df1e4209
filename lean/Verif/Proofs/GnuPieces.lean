import Verif.Proofs.Pieces
import Verif.Proofs.GnuLoop
import Verif.Props.Concat
/-! # The parts of a relative time are relative times -/
namespace Fundu.Props.GnuPieces
open Fundu Fundu.Spec Fundu.Gnu Fundu.Props Fundu.Props.Pieces

/-- the front of `s` is `p`, which satisfies `P`, then there are white space and `rest`; `p` is ASCII or ends at an ASCII byte or the end of the
text -/
def Cut (P : Bytes → Prop) (s rest : Bytes) : Prop :=
  ∃ p sp, s = p ++ (sp ++ rest) ∧ p ≠ [] ∧ P p ∧ (∀ b ∈ sp, PosixSpace b) ∧ (rest = [] → sp = []) ∧
    ((∀ b ∈ p, b.toNat < 128) ∨ sp ++ rest = [] ∨ StartsWith (·.toNat < 128) (sp ++ rest))

theorem end_ascii {b : UInt8} (h : GnuEnd b) : b.toNat < 128 := h.elim posixSpace_ascii next_ascii

theorem spaces {s r : Bytes} (h : Spaces s r) : ∃ sp, s = sp ++ r ∧ (∀ b ∈ sp, PosixSpace b) ∧ ∀ Y, Front Y r → Spaces (sp ++ Y) Y := by
  obtain ⟨sp, h1, h2, h3⟩ := h
  exact ⟨sp, h1, h2, fun Y hY => ⟨sp, rfl, h2, fun g => h3 (hY _ g)⟩⟩

theorem gap {s r : Bytes} (h : GnuGap s r) : ∃ sp, s = sp ++ r ∧ (∀ b ∈ sp, PosixSpace b) ∧ (r = [] → sp = []) := by
  obtain ⟨h1, h2⟩ := h
  obtain ⟨sp, rfl, h3, -⟩ := spaces h1
  exact ⟨sp, rfl, h3, fun g => (List.append_eq_nil_iff.1 (h2 g)).1⟩

theorem gap_nil : GnuGap [] [] := ⟨⟨[], rfl, by simp, not_startsWith_nil⟩, fun h => h⟩

theorem digits {s W r Y : Bytes} (h : GnuDigits s W r) (hY : Front Y r) : s = W ++ r ∧ W ≠ [] ∧ GnuDigits (W ++ Y) W Y := by
  obtain ⟨⟨h1, h2, h3⟩, h4, h5⟩ := h
  exact ⟨h1, h4, ⟨rfl, h2, fun g => h3 (hY _ g)⟩, h4, fun g => h5 (hY _ g)⟩

theorem decimals {s W F r Y : Bytes} (h : GnuDecimal s W F r) (hY : Front Y r) :
    s = (W ++ (46 :: F)) ++ r ∧ W ≠ [] ∧ GnuDecimal ((W ++ (46 :: F)) ++ Y) W F Y := by
  obtain ⟨r1, ⟨h1, h2, h3⟩, h4, ⟨h5, h6, h7⟩, h8, h9⟩ := h
  refine ⟨?_, h4, F ++ Y, ⟨?_, h2, ?_⟩, h4, ⟨rfl, h6, fun g => h7 (hY _ g)⟩, h8, fun g => h9 (hY _ g)⟩
  · rw [h1, h5]; simp only [List.append_assoc, List.cons_append]
  · simp only [List.append_assoc, List.cons_append]
  · rintro ⟨b, l, e, hb⟩
    cases e
    exact absurd hb (by decide)

theorem word_ne {table : List (List Bytes × GnuLength)} (ht : ∀ e ∈ table, ∀ name ∈ e.1, name ≠ []) {w : Bytes} {len : GnuLength} (h : GnuWord table w len) :
    w ≠ [] := by
  rintro rfl
  obtain ⟨names, h1, name, h2, h3⟩ := h
  have := sameText_length h3
  exact ht _ h1 _ h2 (List.eq_nil_of_length_eq_zero this.symm)

theorem units_ne : ∀ e ∈ gnuUnits, ∀ name ∈ e.1, name ≠ [] := by decide
theorem keywords_ne : ∀ e ∈ gnuKeywords, ∀ name ∈ e.1, name ≠ [] := by decide

theorem word_alone {table : List (List Bytes × GnuLength)} {s w r : Bytes} {len : GnuLength} (h : Split (¬ GnuEnd ·) s w r) (hw : GnuWord table w len) :
    GnuWordAt table w len [] :=
  ⟨w, ⟨by rw [List.append_nil], h.2.1, not_startsWith_nil⟩, hw⟩

theorem noUnit_nil : NoUnit [] [] := by
  refine ⟨[], ⟨[], rfl, by simp, not_startsWith_nil⟩, fun h => h, ?_, rfl⟩
  rintro ⟨len, t, w, h1, h2⟩
  exact word_ne units_ne h2 (List.append_eq_nil_iff.1 h1.1.symm).1

theorem unitAt {s rest : Bytes} {len : GnuLength} {ago : Bool} (h : GnuUnitAt s len ago rest) :
    ∃ p sp, s = p ++ (sp ++ rest) ∧ p ≠ [] ∧ GnuUnitAt p len ago [] ∧ (∀ b ∈ sp, PosixSpace b) ∧ (rest = [] → sp = []) ∧
      (sp ++ rest = [] ∨ StartsWith (·.toNat < 128) (sp ++ rest)) := by
  obtain ⟨r, r', ⟨w, h1, h2⟩, h3, h4⟩ := h
  obtain ⟨sp, rfl, g1, g2⟩ := gap h4
  have hw := word_ne units_ne h2
  generalize e0 : sp ++ rest = r0 at h3
  cases h3 with
  | absent _ =>
    subst e0
    refine ⟨w, sp, h1.1, hw, ⟨[], [], word_alone h1 h2, .absent ?_, gap_nil⟩, g1, g2, (split_end h1).imp id (startsWith_mono fun b hb => end_ascii hb)⟩
    rintro ⟨rest, sp, r, k1, k2, -⟩
    exact k2 (List.append_eq_nil_iff.1 k1.1.symm).1
  | present k =>
    obtain ⟨sp', r1, k1, k2, ⟨x, rfl, hx⟩, k4⟩ := k
    subst e0
    obtain ⟨c, sp'', rfl⟩ := List.exists_cons_of_ne_nil k2
    have hcs : PosixSpace c := k1.2.1 c (by simp)
    have hxs : ¬ StartsWith PosixSpace x := by
      rintro ⟨b, l, rfl, hb⟩
      have hl := sameText_letters hx (by decide) b (by simp)
      have key : ∀ n < 256, PosixSpace (UInt8.ofNat n) → ¬ IsLetter (UInt8.ofNat n) := by unfold PosixSpace IsLetter; decide +kernel
      have := key b.toNat b.toNat_lt
      rw [UInt8.ofNat_toNat] at this
      exact this hb hl
    refine ⟨w ++ (c :: sp'' ++ x), sp, ?_, by simp, ⟨c :: sp'' ++ x, [], ⟨w, ⟨rfl, h1.2.1, ?_⟩, h2⟩, .present ?_, gap_nil⟩, g1, g2, ?_⟩
    · rw [h1.1, k1.1]; simp only [List.append_assoc]
    · rintro ⟨b, l, e, hb⟩
      cases e
      exact hb (Or.inl hcs)
    · exact ⟨c :: sp'', x, ⟨rfl, k1.2.1, hxs⟩, by simp, ⟨x, by rw [List.append_nil], hx⟩, Or.inl rfl⟩
    · exact k4.imp id (startsWith_mono fun b hb => end_ascii hb)

theorem gnuText {neg : Bool} {s rest : Bytes} {part : GnuPart} (h : GnuText neg s part rest) : Cut (GnuText neg · part []) s rest := by
  have hdig : ∀ {l : Bytes}, (∀ c ∈ l, IsDigit c) → ∀ c ∈ l, c.toNat < 128 := fun hl c hc => by
    have := (hl c hc).2; omega
  cases h with
  | numberUnit h1 h2 h3 =>
    obtain ⟨p, sp, rfl, hp, g1, g2, g3, g4⟩ := unitAt h3
    obtain ⟨sg, rfl, k1, k2⟩ := spaces h2
    obtain ⟨rfl, d1, d2⟩ := digits h1 (Y := sg ++ p) (front_append.more sg)
    exact ⟨_, sp, by simp only [List.append_assoc], by simp [d1], .numberUnit d2 (k2 p front_append) g1, g2, g3, Or.inr g4⟩
  | @number W r _ h1 h2 =>
    obtain ⟨r', h3, h4, h5, rfl⟩ := h2
    obtain ⟨sp, rfl, k1, -⟩ := spaces h3
    obtain ⟨rfl, d1, d2⟩ := digits h1 (Y := []) front_nil
    rw [List.append_nil] at d2
    exact ⟨W, sp, rfl, d1, .number d2 noUnit_nil, k1, fun g => (List.append_eq_nil_iff.1 (h4 g)).1, Or.inl (hdig h1.1.2.1)⟩
  | decimalUnit h1 h2 h3 =>
    obtain ⟨p, sp, rfl, hp, g1, g2, g3, g4⟩ := unitAt h3
    obtain ⟨sg, rfl, k1, k2⟩ := spaces h2
    obtain ⟨rfl, d1, d2⟩ := decimals h1 (Y := sg ++ p) (front_append.more sg)
    exact ⟨_, sp, by simp only [List.append_assoc], by simp, .decimalUnit d2 (k2 p front_append) g1, g2, g3, Or.inr g4⟩
  | @decimal W F r _ h1 h2 =>
    obtain ⟨r', h3, h4, h5, rfl⟩ := h2
    obtain ⟨sp, rfl, k1, -⟩ := spaces h3
    obtain ⟨rfl, d1, d2⟩ := decimals h1 (Y := []) front_nil
    rw [List.append_nil] at d2
    refine ⟨W ++ 46 :: F, sp, rfl, by simp, .decimal d2 noUnit_nil, k1, fun g => (List.append_eq_nil_iff.1 (h4 g)).1, Or.inl ?_⟩
    obtain ⟨r1, q1, -, q2, -⟩ := h1
    intro b hb
    rcases List.mem_append.1 hb with hb | hb
    · exact hdig q1.2.1 b hb
    rcases List.mem_cons.1 hb with rfl | hb
    · decide
    · exact hdig q2.2.1 b hb
  | keyword h1 h2 =>
    obtain ⟨w, k1, k2⟩ := h1
    obtain ⟨sp, rfl, g1, g2⟩ := gap h2
    exact ⟨w, sp, k1.1, word_ne keywords_ne k2, .keyword (word_alone k1 k2) gap_nil, g1, g2,
      Or.inr ((split_end k1).imp id (startsWith_mono fun b hb => end_ascii hb))⟩
  | unit h1 =>
    obtain ⟨p, sp, rfl, hp, g1, g2, g3, g4⟩ := unitAt h1
    exact ⟨p, sp, rfl, hp, .unit g1, g2, g3, Or.inr g4⟩
  | @numeral w n r r' len ago _ h1 h2 h3 h4 =>
    obtain ⟨p, sp, rfl, hp, g1, g2, g3, g4⟩ := unitAt h4
    obtain ⟨sg, rfl, k1, k2⟩ := spaces h3
    have e : s = (w ++ (sg ++ p)) ++ (sp ++ rest) := by rw [h1.1]; simp only [List.append_assoc]
    exact ⟨w ++ (sg ++ p), sp, e, by simp [hp], .numeral ⟨rfl, h1.2.1, fun g => h1.2.2 (front_append.more sg _ g)⟩ h2 (k2 p front_append) g1, g2, g3, Or.inr g4⟩

theorem sign {s r p X : Bytes} {neg : Bool} (h : GnuSign s neg r) (hr : r = p ++ X) :
    ∃ sg, s = sg ++ (p ++ X) ∧ GnuSign (sg ++ p) neg p ∧ (∀ b ∈ sg, b.toNat < 128) := by
  have hsp : ∀ {sp : Bytes}, (∀ b ∈ sp, PosixSpace b) → ∀ c : UInt8, c.toNat < 128 → ∀ b ∈ c :: sp, b.toNat < 128 := by
    intro sp h c hc b hb
    rcases List.mem_cons.1 hb with rfl | hb
    · exact hc
    · exact posixSpace_ascii (h b hb)
  cases h with
  | absent h =>
    subst hr
    exact ⟨[], rfl, .absent fun g => h (front_append _ g), by simp⟩
  | plus h =>
    subst hr
    obtain ⟨sp, rfl, g1, g2⟩ := spaces h
    exact ⟨43 :: sp, rfl, .plus (g2 p front_append), hsp g1 43 (by decide)⟩
  | minus h =>
    subst hr
    obtain ⟨sp, rfl, g1, g2⟩ := spaces h
    exact ⟨45 :: sp, rfl, .minus (g2 p front_append), hsp g1 45 (by decide)⟩

theorem total_times (n : Int) (len : GnuLength) : gnuTotal [timesLength n len] = (timesLength n len).total := by
  have h1 : ∀ x, clamp (0 + clamp x) = clamp x := by intro x; unfold clamp maxNanos; omega
  have h2 : ∀ x, clampI64 (0 + clampI64 x) = clampI64 x := by intro x; unfold clampI64; omega
  cases len with
  | seconds k => exact congrArg (GnuTotal.mk 0 0) (h1 _)
  | months => exact congrArg (GnuTotal.mk 0 · 0) (h2 _)
  | years => exact congrArg (GnuTotal.mk · 0 0) (h2 _)

/-- the result of a single part is the part -/
theorem total_part {neg : Bool} {s rest : Bytes} {part : GnuPart} (h : GnuText neg s part rest) : gnuTotal [part] = part.total := by
  have h1 : ∀ x, clamp (0 + clamp x) = clamp x := by intro x; unfold clamp maxNanos; omega
  cases h with
  | numberUnit => exact total_times _ _
  | number => exact total_times _ _
  | decimalUnit => exact congrArg (GnuTotal.mk 0 0) (h1 _)
  | decimal => exact congrArg (GnuTotal.mk 0 0) (h1 _)
  | keyword => exact total_times _ _
  | unit => exact total_times _ _
  | numeral => exact total_times _ _

/-- the parts of a relative time are relative times with white space between them -/
theorem relative {s : Bytes} {l : List GnuPart} (h : RelativeTime s l) (hs : IsText s) :
    Spec.GnuPieces (fun p part => IsText p ∧ RelativeTime p [part]) s l := by
  have step : ∀ {s r rest : Bytes} {neg part}, IsText s → GnuSign s neg r → GnuText neg r part rest →
      ∃ p sp, s = p ++ (sp ++ rest) ∧ (∀ b ∈ sp, PosixSpace b) ∧ (rest = [] → sp = []) ∧ IsText p ∧ IsText rest ∧ RelativeTime p [part] := by
    intro s r rest neg part hs h1 h2
    obtain ⟨p, sp, e, hp, g1, g2, g3, g4⟩ := gnuText h2
    obtain ⟨sg, rfl, k1, k2⟩ := sign h1 e
    have e2 : sg ++ (p ++ (sp ++ rest)) = (sg ++ p) ++ (sp ++ rest) := by rw [List.append_assoc]
    rw [e2] at hs ⊢
    obtain ⟨t1, t2⟩ := cut_text (cfg := CONFIG) config_text hs (.delims fun b hb => Or.inl ((delimiter_iff b).2 (g2 b hb)))
      (g4.imp (fun ha b hb => (List.mem_append.1 hb).elim (k2 b) (ha b)) id)
    exact ⟨sg ++ p, sp, rfl, g2, g3, t1, t2, .last k1 g1⟩
  induction h with
  | last h1 h2 =>
    obtain ⟨p, sp, e, -, g3, g4, -, g5⟩ := step hs h1 h2
    rw [g3 rfl, List.append_nil, List.append_nil] at e
    subst e
    exact .last ⟨g4, g5⟩
  | more h1 h2 h3 ih =>
    obtain ⟨p, sp, e, g2, -, g4, g6, g5⟩ := step hs h1 h2
    subst e
    exact .more ⟨g4, g5⟩ g2 (ih g6)

end Fundu.Props.GnuPieces
