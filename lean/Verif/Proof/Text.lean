import Verif.Proof.CharStep

/-!
# Reading a text
-/

namespace Verif
open Nom Spec

theorem nameChar_iff {c : Char} : Spec.NameChar c ↔ isIdentChar c = true := (isIdentChar_iff c).symm

theorem triviaStart {s : Str} (h : ∀ c ∈ [' ', '\t', '\n', '\r', '/'], s.head? ≠ some c) :
    strip s = s := by
  apply strip_of_noTrivia
  intro t r hs ht
  cases ht with
  | nil => rfl
  | white hc => subst hs; simp at hc h; grind
  | line => subst hs; simp at h
  | block => subst hs; simp at h

theorem punct_first (p : Punct) (h : p ≠ .dot ∧ p ≠ .minus) :
    ∀ c ∈ [' ', '\t', '\n', '\r', '/'], p.text.head? ≠ some c := by
  cases p <;> simp_all [Punct.text]

theorem alpha_first {c : Char} (h : c.isAlpha = true ∨ c = '_') : c ∉ [' ', '\t', '\n', '\r', '/'] := by
  rintro h'
  simp at h'
  rcases h' with rfl | rfl | rfl | rfl | rfl <;> revert h <;> decide

theorem digit_first {c : Char} (h : IsDig c ∨ c = '.' ∨ c = '-') :
    c ∉ [' ', '\t', '\n', '\r', '/'] := by
  rintro h'
  simp at h'
  rcases h' with rfl | rfl | rfl | rfl | rfl <;> revert h <;> decide

theorem lexeme_strip {w s : Str} (h : Solid w ∨ Number w) : strip (w ++ s) = w ++ s := by
  apply triviaStart
  intro c hc h'
  rcases h with (⟨i, h⟩ | rfl | ⟨v, h, h2⟩ | ⟨p, hp, hp', rfl⟩) | h
  · obtain ⟨c', v, rfl, h, -⟩ := name_chars h
    simp at h'
    exact alpha_first h (h' ▸ hc)
  · simp at h'; subst h'; revert hc; decide
  · cases h2
    simp at h'; subst h'; revert hc; decide
  · have := punct_first p ⟨hp, hp'⟩ c hc
    cases p <;> simp_all [Punct.text]
  · obtain ⟨c', v, rfl, h2⟩ := h.first
    simp at h'
    exact digit_first h2 (h' ▸ hc)

theorem wordy_last {w : Str} (h : Wordy w) : ∃ c, w.getLast? = some c ∧ isIdentChar c = true := by
  rcases h with ⟨i, h⟩ | rfl
  · obtain ⟨c, v, rfl, h1, h2⟩ := name_chars h
    obtain ⟨d, hd⟩ : ∃ d, (c :: v).getLast? = some d := by
      cases h : (c :: v).getLast? with
      | none => simp at h
      | some d => exact ⟨d, rfl⟩
    exact ⟨d, hd, h2 d (List.mem_of_getLast? hd)⟩
  · exact ⟨'y', rfl, by decide⟩

theorem apart_wordy {w e : Str} (h : Wordy w) (ha : Apart w e) : NameEnd e := by
  obtain ⟨c, h1, h2⟩ := wordy_last h
  rintro d e' rfl
  have := ha c d h1 rfl (nameChar_iff.2 h2)
  rw [nameChar_iff] at this
  simpa using this

theorem NameEnd.apart {w e : Str} (h : NameEnd e) : Apart w e := by
  intro c d _ h2 _ h4
  cases e with
  | nil => simp at h2
  | cons d' e =>
    simp at h2
    subst h2
    rw [nameChar_iff, h _ _ rfl] at h4
    cases h4

theorem Good.cons_lexeme {w : Str} {ls : List Str} (h : Good (w :: ls)) : Solid w ∨ Number w :=
  h.1.imp_right (·.1)

theorem textThen_nil {ls : List Str} {b : Str} : Text ls b ↔ TextThen [] ls b := by
  constructor
  · intro h
    induction h with
    | nil => exact .nil
    | cons ht _ ha ih => exact .cons ht ih ha
  · intro h
    induction h with
    | nil => exact .nil
    | cons ht _ ha ih => exact .cons ht ih ha

theorem textThen_reads {ls : List Str} {b r : Str} (h : TextThen r ls b) (hg : Good ls)
    (hr : strip r = r) : ∀ t, Trivia t → Reads CStep (strip (t ++ b)) ls r := by
  induction h with
  | nil =>
    intro t ht
    rw [strip_trivia ht, hr]
    exact .nil
  | @cons w ws t' s ht' hs ha ih =>
    intro t ht
    rw [strip_trivia ht]
    refine .cons (m := strip (t' ++ s)) ⟨t' ++ s, ?_, fun hw => apart_wordy hw ha, rfl⟩ (ih hg.2 t' ht')
    rw [strip_strip, lexeme_strip hg.cons_lexeme]

/-- The lexemes of a text are read one by one. -/
theorem spelled_reads {t b r : Str} {ls : List Str} (ht : Trivia t) (h : TextThen r ls b) (hl : ls ≠ [])
    (hg : Good ls) (hr : strip r = r) : Reads CStep (t ++ b) ls r := by
  have := textThen_reads h hg hr t ht
  generalize hs : strip (t ++ b) = s at this
  cases this with
  | nil => exact absurd rfl hl
  | cons h1 h2 =>
    obtain ⟨e, h1, h3, h4⟩ := h1
    exact .cons ⟨e, by rwa [← hs, strip_strip] at h1, h3, h4⟩ h2

theorem solid_apart {w e : Str} (h : Solid w) (he : Wordy w → NameEnd e) : Apart w e := by
  rcases h with ⟨i, h⟩ | rfl | ⟨v, h, h2⟩ | ⟨p, hp, hp', rfl⟩
  · exact (he (.inl ⟨i, h⟩)).apart
  · exact (he (.inr rfl)).apart
  · cases h2
    intro c d h1 _ h3
    rw [List.getLast?_append] at h1
    simp at h1
    subst h1
    rw [nameChar_iff] at h3
    exact absurd h3 (by decide)
  · intro c d h1 _ h3
    rw [nameChar_iff] at h3
    cases p <;> simp [Punct.text] at h1 hp hp' <;> subst h1 <;> exact absurd h3 (by decide)

theorem reads_text {s r : Str} {ls : List Str} (h : Reads CStep s ls r) (hg : Good ls) :
    (s = r ∧ ls = []) ∨ (strip r = r ∧ TextThen r ls (strip s)) := by
  induction h with
  | nil => exact .inl ⟨rfl, rfl⟩
  | @cons s m r w ls h t ih =>
    refine .inr ?_
    obtain ⟨e, h1, h2, rfl⟩ := h
    have ha : Apart w e := by
      rcases hg.1 with h | ⟨h, p, ls', rfl, hp⟩
      · exact solid_apart h h2
      · cases t with
        | cons t _ => exact (stopAt_nameEnd (hp.at t)).apart
    obtain ⟨t, h3, h4, -⟩ := skips_strip e
    rw [h1, h3]
    rcases ih hg.2 with ⟨h5, rfl⟩ | ⟨h5, h6⟩
    · subst h5
      exact ⟨strip_strip _, .cons h4 .nil (h3 ▸ ha)⟩
    · refine ⟨h5, .cons h4 ?_ (h3 ▸ ha)⟩
      rwa [strip_strip] at h6

/-- What was read is spelled in the text. -/
theorem reads_spells {s r : Str} {ls : List Str} (h : Reads CStep s ls r) (hl : ls ≠ []) (hg : Good ls) :
    ∃ t b, s = t ++ b ∧ Trivia t ∧ TextThen r ls b := by
  rcases reads_text h hg with ⟨-, h⟩ | ⟨-, h⟩
  · exact absurd h hl
  · obtain ⟨t, h1, h2, -⟩ := skips_strip s
    exact ⟨t, strip s, h1, h2, h⟩

/-- Reading to the end of the input. -/
theorem reads_document {s : Str} {ls : List Str} (h : Reads CStep s ls []) (hl : ls ≠ []) (hg : Good ls) :
    ∃ t b, s = t ++ b ∧ Trivia t ∧ Text ls b := by
  obtain ⟨t, b, h1, h2, h3⟩ := reads_spells h hl hg
  exact ⟨t, b, h1, h2, textThen_nil.2 h3⟩

theorem document_reads {t b : Str} {ls : List Str} (ht : Trivia t) (h : Text ls b) (hl : ls ≠ [])
    (hg : Good ls) : Reads CStep (t ++ b) ls [] :=
  spelled_reads ht (textThen_nil.1 h) hl hg (strip_trivia_nil .nil)

end Verif
