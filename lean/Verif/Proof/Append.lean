import Verif.Proof.Lexing

/-! # Texts one after the other -/

namespace Verif
open Nom Spec

theorem apart_semi (e : Str) : Apart c!";" e := by
  intro c d h1 _ h3
  simp at h1
  subst h1
  exact absurd h3 (by unfold NameChar; decide)

theorem _root_.Verif.Spec.Trivia.append {t u : Str} (ht : Trivia t) (hu : Trivia u) : Trivia (t ++ u) := by
  induction ht with
  | nil => exact hu
  | white hc _ ih => exact .white hc ih
  | line hb _ ih => simpa using Trivia.line hb ih
  | block hb _ ih => simpa using Trivia.block hb ih

theorem apart_extend {w e e' : Str} (h : Apart w e) (he : e ≠ []) : Apart w (e ++ e') := by
  cases e with
  | nil => exact absurd rfl he
  | cons c e => exact h

/-- A text ending with `;` followed by another text. -/
theorem text_append {a ls : List Str} {b t b' r : Str} (h : Text (a ++ [c!";"]) b) (ht : Trivia t)
    (h' : TextThen r ls b') : b ≠ [] ∧ TextThen r (a ++ [c!";"] ++ ls) (b ++ (t ++ b')) := by
  induction a generalizing b with
  | nil =>
    cases h with
    | @cons _ _ t1 _ ht1 h2 =>
      cases h2
      refine ⟨by simp, ?_⟩
      have := TextThen.cons (t := t1 ++ t) (ht1.append ht) h' (apart_semi _)
      simpa using this
  | cons w a ih =>
    cases h with
    | @cons _ _ t1 s ht1 h2 ha =>
      obtain ⟨h3, h4⟩ := ih h2
      refine ⟨by simp [h3], ?_⟩
      have := TextThen.cons (w := w) ht1 h4 (by
        rw [← List.append_assoc]
        exact apart_extend ha (by simp [h3]))
      simpa using this

theorem concat_append {L1 L2 : List Lang} {a b : List Str} (h1 : concat L1 a) (h2 : concat L2 b) :
    concat (L1 ++ L2) (a ++ b) := by
  induction L1 generalizing a with
  | nil => cases h1; exact h2
  | cons A L1 ih =>
    obtain ⟨x, y, rfl, h3, h4⟩ := h1
    exact ⟨x, y ++ b, by simp, h3, ih h4⟩

theorem concat_split {L1 L2 : List Lang} {ls : List Str} (h : concat (L1 ++ L2) ls) :
    ∃ a b, ls = a ++ b ∧ concat L1 a ∧ concat L2 b := by
  induction L1 generalizing ls with
  | nil => exact ⟨[], ls, rfl, rfl, h⟩
  | cons A L1 ih =>
    obtain ⟨x, y, rfl, h3, h4⟩ := h
    obtain ⟨a, b, rfl, h5, h6⟩ := ih h4
    exact ⟨x ++ a, b, by simp, ⟨x, a, rfl, h3, h5⟩, h6⟩

theorem definitions_append {d1 d2 : List Definition} {a b : List Str} (h1 : definitions d1 a)
    (h2 : definitions d2 b) : definitions (d1 ++ d2) (a ++ b) := by
  unfold definitions
  rw [List.map_append]
  exact concat_append h1 h2

theorem definitions_split {d1 d2 : List Definition} {ls : List Str} (h : definitions (d1 ++ d2) ls) :
    ∃ a b, ls = a ++ b ∧ definitions d1 a ∧ definitions d2 b := by
  unfold definitions at h
  rw [List.map_append] at h
  exact concat_split h

theorem semi_definitions {ds : List Definition} (hd : ds ≠ []) : Semi (definitions ds) := by
  have h : ds = ds.dropLast ++ [ds.getLast hd] := (List.dropLast_concat_getLast hd).symm
  intro ls hl
  rw [h] at hl
  obtain ⟨a, b, rfl, -, h2⟩ := definitions_split hl
  obtain ⟨x, y, rfl, h3, h4⟩ := h2
  cases h4
  obtain ⟨c, rfl⟩ := semi_definition _ x h3
  exact ⟨a ++ c, by simp⟩

/-- The lexemes of a text, split. -/
theorem textThen_split {a ls : List Str} {b r : Str} (h : TextThen r (a ++ ls) b) :
    ∃ b', TextThen b' a b ∧ TextThen r ls b' := by
  induction a generalizing b with
  | nil => exact ⟨b, .nil, h⟩
  | cons w a ih =>
    cases h with
    | cons ht hs ha =>
      obtain ⟨b', h1, h2⟩ := ih hs
      exact ⟨b', .cons ht h1 ha, h2⟩

/-- Everything up to the rest is itself a text. -/
theorem textThen_text {a : List Str} {b r : Str} (h : TextThen r a b) : ∃ b', b = b' ++ r ∧ Text a b' := by
  induction h with
  | nil => exact ⟨[], rfl, .nil⟩
  | @cons w ws t s ht hs ha ih =>
    obtain ⟨b', rfl, h⟩ := ih
    refine ⟨w ++ (t ++ b'), by simp, .cons ht h ?_⟩
    intro c d h1 h2
    refine ha c d h1 ?_
    rw [← List.append_assoc]
    cases h3 : t ++ b' with
    | nil => rw [h3] at h2; simp at h2
    | cons x y => rw [h3] at h2; exact h2

/-- The text of a definition or member ends with a semicolon and trivia. -/
theorem textThen_semi {a : List Str} {b r : Str} (h : TextThen r (a ++ [c!";"]) b) :
    ∃ p t, b = p ++ c!";" ++ t ++ r ∧ Trivia t := by
  obtain ⟨b', h1, h2⟩ := textThen_split h
  obtain ⟨p, rfl, -⟩ := textThen_text h1
  cases h2 with
  | @cons _ _ t _ ht h3 =>
    cases h3
    exact ⟨p, t, by simp, ht⟩

theorem spells_semi {α : Type} {L : α → Lang} {a : α} {s r : Str} (hL : Semi (L a)) (h : Spells L a s r) :
    ∃ p t, s = p ++ c!";" ++ t ++ r ∧ Trivia t := by
  obtain ⟨t, ls, b, rfl, -, h1, h2⟩ := h
  obtain ⟨c, rfl⟩ := hL ls h1
  obtain ⟨p, t', rfl, ht⟩ := textThen_semi h2
  exact ⟨t ++ p, t', by simp, ht⟩

/-- Lexemes separated by spaces. -/
theorem text_spaced (ls : List Str) : Text ls (spaced ls) := by
  induction ls with
  | nil => exact .nil
  | cons w ls ih =>
    refine .cons (t := c!" ") (.white (by simp) .nil) ih ?_
    intro c d _ h1 _ h2
    simp at h1
    subst h1
    exact absurd h2 (by unfold NameChar; decide)

/-- No terminal begins with a slash. -/
theorem slash_dull {x : Str} (hx : strip ('/' :: x) = '/' :: x) : Dull charLeaf ('/' :: x) := by
  refine (dead_end fun α l => charLeaf_fails fun w e v h1 h2 _ => ?_).toDull
  rw [hx] at h1
  obtain ⟨c, w', rfl, h3⟩ := leafText_first h2
  simp at h1
  obtain ⟨rfl, -⟩ := h1
  cases l with
  | punct p => cases p <;> simp [First, Punct.text] at h3
  | kw k => cases k <;> simp [First, Kw.text] at h3
  | _ => revert h3; simp only [First]; decide

theorem slashes_noTrivia {x : Str} (hx : '\n' ∉ x) : strip (c!"//" ++ x) = c!"//" ++ x := by
  apply strip_of_noTrivia
  intro t r h ht
  cases ht with
  | nil => rfl
  | white hc => simp at h hc; obtain ⟨rfl, -⟩ := h; simp at hc
  | line =>
    simp at h
    rw [h] at hx
    simp at hx
  | block => simp at h

end Verif
