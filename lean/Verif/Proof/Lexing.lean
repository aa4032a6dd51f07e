import Verif.Spec.Lexing
import Verif.Proof.Document

/-! # The items of a text -/

namespace Verif
open Nom Spec

theorem identifier_name {w : Str} : Regex.identifier.Matches w ↔ ∃ i, name i [w] := by
  unfold Regex.identifier name
  rw [Regex.matches_seq]
  constructor
  · rintro ⟨g, i, rfl, h1, h2⟩
    refine ⟨i, h2, ?_⟩
    rcases Regex.matches_opt.1 h1 with h1 | rfl
    · obtain rfl := Regex.matches_chr.1 h1
      exact .inr rfl
    · exact .inl rfl
  · rintro ⟨i, h1, h2⟩
    simp at h2
    rcases h2 with rfl | rfl
    · exact ⟨[], w, rfl, Regex.matches_opt.2 (.inr rfl), h1⟩
    · exact ⟨['_'], i, rfl, Regex.matches_opt.2 (.inl (Regex.matches_chr.2 rfl)), h1⟩

theorem string_item {w : Str} : Regex.string.Matches w ↔ ∃ v, string v [w] := by
  unfold Regex.string Spec.string
  rw [Regex.matches_seq]
  constructor
  · rintro ⟨a, b, rfl, h1, h2⟩
    obtain ⟨v, c, rfl, h4, h3⟩ := Regex.matches_seq.1 h2
    obtain rfl := Regex.matches_chr.1 h1
    obtain rfl := Regex.matches_chr.1 h3
    have := Regex.matches_star_cls.1 h4
    exact ⟨v, fun h => this _ h rfl, by simp⟩
  · rintro ⟨v, h1, h2⟩
    simp at h2
    subst h2
    refine ⟨['"'], v ++ ['"'], rfl, Regex.matches_chr.2 rfl, Regex.matches_seq.2 ⟨v, ['"'], rfl,
      Regex.matches_star_cls.2 fun c hc => ?_, Regex.matches_chr.2 rfl⟩⟩
    rintro rfl
    exact h1 hc

theorem punctuation_iff {w : Str} : w ∈ punctuation ↔ ∃ p : Punct, p ≠ .dot ∧ p ≠ .minus ∧ w = p.text := by
  constructor
  · intro h
    simp [punctuation] at h
    rcases h with rfl | rfl | rfl | rfl | rfl | rfl | rfl | rfl | rfl | rfl | rfl | rfl | rfl | rfl | rfl
    · exact ⟨.openParen, by decide, by decide, rfl⟩
    · exact ⟨.closeParen, by decide, by decide, rfl⟩
    · exact ⟨.openBracket, by decide, by decide, rfl⟩
    · exact ⟨.closeBracket, by decide, by decide, rfl⟩
    · exact ⟨.openBrace, by decide, by decide, rfl⟩
    · exact ⟨.closeBrace, by decide, by decide, rfl⟩
    · exact ⟨.comma, by decide, by decide, rfl⟩
    · exact ⟨.colon, by decide, by decide, rfl⟩
    · exact ⟨.semiColon, by decide, by decide, rfl⟩
    · exact ⟨.lessThan, by decide, by decide, rfl⟩
    · exact ⟨.greaterThan, by decide, by decide, rfl⟩
    · exact ⟨.assign, by decide, by decide, rfl⟩
    · exact ⟨.qMark, by decide, by decide, rfl⟩
    · exact ⟨.ellipsis, by decide, by decide, rfl⟩
    · exact ⟨.asterisk, by decide, by decide, rfl⟩
  · rintro ⟨p, h1, h2, rfl⟩
    cases p <;> simp_all [punctuation, Punct.text]

theorem item_iff {w : Str} : Item w ↔ Solid w ∨ Number w := by
  constructor
  · intro h
    cases h with
    | word h => exact .inl (.inl (identifier_name.1 h))
    | negInfinity => exact .inl (.inr (.inl rfl))
    | string h => exact .inl (.inr (.inr (.inl (string_item.1 h))))
    | number h => exact .inr h
    | punct h => exact .inl (.inr (.inr (.inr (punctuation_iff.1 h))))
  · rintro ((h | rfl | h | h) | h)
    · exact .word (identifier_name.2 h)
    · exact .negInfinity
    · exact .string (string_item.2 h)
    · exact .punct (punctuation_iff.2 h)
    · exact .number h

theorem NumEnd.of {e : Str} (h : ∀ c, e.head? = some c → ¬ NameChar c ∧ c ≠ '.' ∧ c ≠ '+') : NumEnd e := by
  rintro c e' rfl hc
  obtain ⟨h1, h2, h3⟩ := h c rfl
  refine h1 ?_
  unfold NumChar IsDig at hc
  unfold NameChar
  rcases hc with hc | hc | hc | hc
  · exact .inl hc
  · exact .inr (.inl ⟨hc.1, Char.le_trans hc.2 (by decide)⟩)
  · exact .inr (.inr (.inl ⟨hc.1, Char.le_trans hc.2 (by decide)⟩))
  · simp at hc
    rcases hc with rfl | rfl | rfl | rfl | rfl
    · exact .inr (.inr (.inl (by decide)))
    · exact .inr (.inl (by decide))
    · exact absurd rfl h2
    · exact absurd rfl h3
    · simp

/-- The first item of a text is determined by the text. -/
theorem item_unique {w e w' e' : Str} (hw : Item w) (hw' : Item w') (h : Separate w e)
    (h' : Separate w' e') (he : w ++ e = w' ++ e') : w = w' := by
  rw [item_iff] at hw hw'
  rcases hw with hw | hw
  · rcases hw' with hw' | hw'
    · obtain ⟨α, l, v, h3, h4, h5⟩ := hw'.leaf fun hy => apart_wordy hy h'.1
      rcases reader_solid h3 hw (fun hy => apart_wordy hy h.1) with ⟨v', h6, h7⟩ | ⟨-, h6⟩
      · exact (leafText_unique he h6 h7 h4 h5).1
      · exact absurd h5 (h6 w' e' v he h4)
    · exact (number_solid hw hw' he).elim
  · rcases hw' with hw' | hw'
    · exact (number_solid hw' hw he.symm).elim
    · have a := hw.prefix (.of (h'.2 hw')) (he ▸ List.prefix_append _ _)
      have b := hw'.prefix (.of (h.2 hw)) (by rw [he]; exact List.prefix_append _ _)
      exact a.eq_of_length_le b.length_le

theorem items_strip {ls : List Str} {b : Str} (h : Items ls b) : strip b = b := by
  cases h with
  | nil => rfl
  | cons hw => exact lexeme_strip (item_iff.1 hw)

theorem item_ne_nil {w : Str} (h : Item w) : w ≠ [] := by
  rintro rfl
  rw [item_iff] at h
  rcases h with (⟨i, h⟩ | h | ⟨v, -, h⟩ | ⟨p, -, -, h⟩) | h
  · obtain ⟨c, v, h, -⟩ := name_chars h
    simp at h
  · simp at h
  · simp at h
  · cases p <;> simp [Punct.text] at h
  · obtain ⟨c, v, h, -⟩ := h.first
    simp at h

theorem items_unique {ls ls' : List Str} {b : Str} (h : Items ls b) (h' : Items ls' b) : ls = ls' := by
  generalize hb : b = b' at h'
  induction h generalizing ls' b' with
  | nil =>
    cases h' with
    | nil => rfl
    | cons hw => 
      have := item_ne_nil hw
      simp_all
  | @cons w ws t s hw ht hs ha ih =>
    cases h' with
    | nil => 
      have := item_ne_nil hw
      simp_all
    | @cons w' ws' t' s' hw' ht' hs' ha' =>
      obtain rfl := item_unique hw hw' ha ha' hb
      have h1 := congrArg strip (List.append_cancel_left hb)
      rw [strip_trivia ht, strip_trivia ht', items_strip hs, items_strip hs'] at h1
      rw [ih _ h1 hs']

theorem lexes_unique {s : Str} {ls ls' : List Str} (h : Lexes s ls) (h' : Lexes s ls') : ls = ls' := by
  obtain ⟨t, b, rfl, h1, h2⟩ := h
  obtain ⟨t', b', h3, h1', h2'⟩ := h'
  have h4 := congrArg strip h3
  rw [strip_trivia h1, strip_trivia h1', items_strip h2, items_strip h2'] at h4
  subst h4
  exact items_unique h2 h2'

theorem items_text {ls : List Str} {b : Str} (h : Items ls b) : Text ls b := by
  induction h with
  | nil => exact .nil
  | cons _ ht _ ha ih => exact .cons ht ih ha.1

/-- What follows a number when the next lexeme is one of `;` `,` `)`. -/
theorem stop_separate {t s p : Str} {ls : List Str} (ht : Trivia t) (hp : Stop p) (h : Text (p :: ls) s) :
    ∀ c, (t ++ s).head? = some c → ¬ NameChar c ∧ c ≠ '.' ∧ c ≠ '+' := by
  have key : ∀ c ∈ [';', ',', ')', ' ', '\t', '\n', '\r', '/'], ¬ NameChar c ∧ c ≠ '.' ∧ c ≠ '+' := by
    unfold NameChar; decide
  intro c hc
  apply key
  cases ht with
  | nil =>
    cases h with
    | cons =>
      simp [Stop] at hp
      rcases hp with rfl | rfl | rfl <;> simp at hc <;> simp [← hc]
  | white h =>
    simp at hc h
    subst hc
    simp
    grind
  | line => simp at hc; simp [← hc]
  | block => simp at hc; simp [← hc]

theorem good_items {ls : List Str} {b : Str} (h : Text ls b) (hg : Good ls) : Items ls b := by
  induction h with
  | nil => exact .nil
  | @cons w ws t s ht hs ha ih =>
    refine .cons (item_iff.2 hg.cons_lexeme) ht (ih hg.2) ⟨ha, fun hn => ?_⟩
    rcases hg.1 with h | ⟨h, p, ls', rfl, hp⟩
    · exact (number_solid (e := []) (e' := []) h hn rfl).elim
    · exact stop_separate ht hp hs

theorem lexes_nil : Lexes [] [] := ⟨[], [], rfl, .nil, .nil⟩

/-- Acceptance depends on the items only. -/
theorem document_lexes {s : Str} {ds : List Definition} :
    Document ds s ↔ (ds = [] ∧ s = []) ∨ (ds ≠ [] ∧ ∃ ls, Lexes s ls ∧ definitions ds ls) := by
  unfold Document
  constructor
  · rintro (h | ⟨h, t, ls, b, rfl, h1, h2, h3⟩)
    · exact .inl h
    · exact .inr ⟨h, ls, ⟨t, b, rfl, h1, good_items h3 (allGood_definitions _ _ h2)⟩, h2⟩
  · rintro (h | ⟨h, ls, ⟨t, b, rfl, h1, h2⟩, h3⟩)
    · exact .inl h
    · exact .inr ⟨h, t, ls, b, rfl, h1, h3, items_text h2⟩

end Verif
