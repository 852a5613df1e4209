import Verif.Props.Standard
import Verif.Model.Systemd
/-!
# Property C39: white space around the source
-/
namespace Fundu.Props
open Fundu Fundu.Spec

theorem isPosixSpace_iff (b : UInt8) : isPosixSpace b = true ↔ PosixSpace b := by
  have h : ∀ n, n < 256 → (isPosixSpace (UInt8.ofNat n) = true ↔ PosixSpace (UInt8.ofNat n)) := by decide +kernel
  have := h b.toNat b.toNat_lt
  rwa [UInt8.ofNat_toNat] at this

theorem dropWhile_split {p : UInt8 → Bool} (l : Bytes) : ∃ a, l = a ++ l.dropWhile p ∧ (∀ b ∈ a, p b = true) ∧
    ∀ b, (l.dropWhile p).head? = some b → p b = false := by
  induction l with
  | nil => exact ⟨[], rfl, by simp, by simp⟩
  | cons x l ih =>
    by_cases hx : p x = true
    · obtain ⟨a, h1, h2, h3⟩ := ih
      refine ⟨x :: a, ?_, ?_, ?_⟩
      · rw [List.dropWhile_cons_of_pos hx, List.cons_append, ← h1]
      · intro b hb
        rcases List.mem_cons.1 hb with rfl | hb
        · exact hx
        · exact h2 b hb
      · rw [List.dropWhile_cons_of_pos hx]; exact h3
    · refine ⟨[], ?_, by simp, ?_⟩
      · rw [List.dropWhile_cons_of_neg hx]; rfl
      · rw [List.dropWhile_cons_of_neg hx]
        intro b hb
        cases hb
        simpa using hx

theorem dropWhile_append_of {p : UInt8 → Bool} {a l : Bytes} (h : ∀ b ∈ a, p b = true) :
    (a ++ l).dropWhile p = l.dropWhile p := by
  induction a with
  | nil => rfl
  | cons x a ih =>
    rw [List.cons_append, List.dropWhile_cons_of_pos (h x (by simp)), ih (fun b hb => h b (by simp [hb]))]

theorem trim_trimmed (s : Bytes) : Trimmed s (trimWhitespaceBytes s) := by
  unfold trimWhitespaceBytes
  obtain ⟨pre, h1, h2, h3⟩ := dropWhile_split (p := isPosixSpace) s
  generalize hm : s.dropWhile isPosixSpace = m at *
  obtain ⟨post, g1, g2, g3⟩ := dropWhile_split (p := isPosixSpace) m.reverse
  generalize hq : m.reverse.dropWhile isPosixSpace = q at *
  have hm' : m = q.reverse ++ post.reverse := by
    rw [← List.reverse_append, ← g1, List.reverse_reverse]
  refine ⟨pre, post.reverse, ?_, fun b hb => (isPosixSpace_iff b).1 (h2 b hb),
    fun b hb => (isPosixSpace_iff b).1 (g2 b (by simpa using hb)), ?_, ?_⟩
  · rw [← hm']; exact h1
  · intro b hb hp
    have : m.head? = some b := by
      rw [hm', List.head?_append, hb]; rfl
    have := h3 b this
    rw [(isPosixSpace_iff b).2 hp] at this
    cases this
  · intro b hb hp
    rw [List.getLast?_reverse] at hb
    have := g3 b hb
    rw [(isPosixSpace_iff b).2 hp] at this
    cases this

theorem trim_surround {pre post s : Bytes} (h1 : ∀ b ∈ pre, PosixSpace b) (h2 : ∀ b ∈ post, PosixSpace b) :
    trimWhitespaceBytes (pre ++ (s ++ post)) = trimWhitespaceBytes s := by
  unfold trimWhitespaceBytes
  rw [dropWhile_append_of (fun b hb => (isPosixSpace_iff b).2 (h1 b hb))]
  obtain ⟨a, e, g1, g2⟩ := dropWhile_split (p := isPosixSpace) s
  have e2 : (s ++ post).dropWhile isPosixSpace = (s.dropWhile isPosixSpace ++ post).dropWhile isPosixSpace := by
    have e3 : (s ++ post).dropWhile isPosixSpace = (a ++ (s.dropWhile isPosixSpace ++ post)).dropWhile isPosixSpace := by
      rw [← List.append_assoc, ← e]
    rw [e3, dropWhile_append_of g1]
  rw [e2]
  generalize s.dropWhile isPosixSpace = q at g2
  cases q with
  | nil =>
    have : post.dropWhile isPosixSpace = [] := by
      have := dropWhile_append_of (l := []) (fun b hb => (isPosixSpace_iff b).2 (h2 b hb))
      rw [List.append_nil] at this
      exact this
    rw [List.nil_append, this]
  | cons b q =>
    rw [List.cons_append, List.dropWhile_cons_of_neg (by rw [g2 b rfl]; simp), ← List.cons_append,
      List.reverse_append, dropWhile_append_of]
    intro c hc
    exact (isPosixSpace_iff c).2 (h2 c (by simpa using hc))

theorem trimmed_unique {s m m' : Bytes} (h : Trimmed s m) (h' : Trimmed s m') : m = m' := by
  have key : ∀ {m : Bytes}, Trimmed s m → trimWhitespaceBytes s = m := by
    rintro m ⟨pre, post, rfl, h1, h2, h3, h4⟩
    rw [trim_surround h1 h2]
    unfold trimWhitespaceBytes
    cases m with
    | nil => rfl
    | cons b m =>
      have hb : isPosixSpace b = false := by
        rw [← Bool.not_eq_true, isPosixSpace_iff]; exact h3 b rfl
      rw [List.dropWhile_cons_of_neg (by rw [hb]; simp)]
      rw [← List.head?_reverse] at h4
      generalize hr : (b :: m).reverse = r at *
      cases r with
      | nil =>
        have := congrArg List.length hr
        simp at this
      | cons c r =>
        have hc : isPosixSpace c = false := by
          rw [← Bool.not_eq_true, isPosixSpace_iff]; exact h4 c rfl
        rw [List.dropWhile_cons_of_neg (by rw [hc]; simp), ← hr, List.reverse_reverse]
  rw [← key h, ← key h']

theorem posixSpace_ascii {b : UInt8} (h : PosixSpace b) : b.toNat < 128 := by
  rcases h with rfl | rfl | rfl | rfl | rfl | rfl <;> decide

theorem trimmed_text {s m : Bytes} (hs : IsText s) (h : Trimmed s m) : IsText m := by
  obtain ⟨pre, post, rfl, h1, h2, -⟩ := h
  rw [isText_iff] at hs ⊢
  have h3 := utf8Valid_right hs (utf8Valid_ascii fun b hb => posixSpace_ascii (h1 b hb))
  refine utf8Valid_left h3 ?_
  intro x hx
  refine isCont_of_ascii (posixSpace_ascii (h2 x ?_))
  cases post with
  | nil => cases hx
  | cons b l => cases hx; simp

/-- C39: trimming a text removes exactly the white space at both ends, and the result is a text (the `unsafe` block
is sound). -/
theorem C39_trim (s : Bytes) (hs : IsText s) :
    ∃ m, trimWhitespace s = .ok m ∧ IsText m ∧ ∀ m', Trimmed s m' ↔ m' = m := by
  have ht := trimmed_text hs (trim_trimmed s)
  refine ⟨trimWhitespaceBytes s, ?_, ht, fun m' => ⟨fun h => trimmed_unique h (trim_trimmed s), ?_⟩⟩
  · unfold trimWhitespace utf8Unchecked
    rw [if_pos ((isText_iff _).1 ht)]
  · rintro rfl; exact trim_trimmed s

/-- C39: white space in front and behind does not change the result of trimming. -/
theorem C39_trim_surround (pre s post : Bytes) (h1 : ∀ b ∈ pre, PosixSpace b) (h2 : ∀ b ∈ post, PosixSpace b) :
    trimWhitespace (pre ++ (s ++ post)) = trimWhitespace s := by
  unfold trimWhitespace
  rw [trim_surround h1 h2]

example : trimWhitespace (b! " \t\n1 s\r ") = .ok (b! "1 s") ∧ (∀ b ∈ b! " \t\n", PosixSpace b) := by decide +kernel

end Fundu.Props
