import Verif.Spec.Alphabet
import Verif.Proof.Lexing

/-! # The characters of documents -/

namespace Verif
open Nom Spec

/-- Characters that do not begin a comment or a string. -/
def CodeChar (c : Char) : Prop := c ≠ '"' ∧ c ≠ '/'

theorem outside_plain {c : Char} (h : CodeChar c) (s : Str) : outside .code (c :: s) = c :: outside .code s := by
  obtain ⟨h1, h2⟩ := h
  rw [outside] <;> grind

theorem ending_plain {c : Char} (h : CodeChar c) (s : Str) : ending .code (c :: s) = ending .code s := by
  obtain ⟨h1, h2⟩ := h
  rw [ending] <;> grind

theorem outside_plains {w : Str} (h : ∀ c ∈ w, CodeChar c) (s : Str) :
    outside .code (w ++ s) = w ++ outside .code s ∧ ending .code (w ++ s) = ending .code s := by
  induction w with
  | nil => exact ⟨rfl, rfl⟩
  | cons c w ih =>
    have := ih fun d hd => h d (by simp [hd])
    rw [List.cons_append, outside_plain (h c (by simp)), ending_plain (h c (by simp)), this.1, this.2]
    exact ⟨rfl, rfl⟩

theorem outside_string {v : Str} (hv : '"' ∉ v) (s : Str) :
    outside .string (v ++ '"' :: s) = outside .code s ∧ ending .string (v ++ '"' :: s) = ending .code s := by
  induction v with
  | nil => simp [outside, ending]
  | cons c v ih =>
    simp at hv
    have := ih hv.2
    rw [List.cons_append, outside, ending] <;> grind

theorem outside_line {v : Str} (hv : '\n' ∉ v) (s : Str) :
    outside .lineComment (v ++ '\n' :: s) = outside .code s ∧
      ending .lineComment (v ++ '\n' :: s) = ending .code s := by
  induction v with
  | nil => simp [outside, ending]
  | cons c v ih =>
    simp at hv
    have := ih hv.2
    rw [List.cons_append, outside, ending] <;> grind

theorem outside_block {b : Str} (hb : ¬ c!"*/" <:+: b) (s : Str) :
    outside .blockComment (b ++ '*' :: '/' :: s) = outside .code s ∧
      ending .blockComment (b ++ '*' :: '/' :: s) = ending .code s := by
  induction b with
  | nil => simp [outside, ending]
  | cons c b ih =>
    have := ih fun h => hb (h.trans (List.suffix_cons c b).isInfix)
    have hne : ∀ s' : Str, c = '*' → b ++ '*' :: '/' :: s = '/' :: s' → False := by
      rintro s' rfl e
      cases b with
      | nil => simp at e
      | cons d b =>
        simp at e
        exact hb ⟨[], b, by simp [e.1]⟩
    rw [List.cons_append, outside, ending]
    · exact this
    · exact hne
    · exact hne

theorem outside_trivia {t : Str} (ht : Trivia t) (s : Str) :
    (∃ w, (∀ c ∈ w, c ∈ alphabet) ∧ outside .code (t ++ s) = w ++ outside .code s) ∧
      ending .code (t ++ s) = ending .code s := by
  induction ht with
  | nil => exact ⟨⟨[], by simp, rfl⟩, rfl⟩
  | @white c t hc _ ih =>
    have hp : CodeChar c := by
      simp only [List.mem_cons, List.not_mem_nil, or_false] at hc
      rcases hc with rfl | rfl | rfl | rfl <;> exact ⟨by decide, by decide⟩
    have ha : c ∈ alphabet := by
      simp only [List.mem_cons, List.not_mem_nil, or_false] at hc
      rcases hc with rfl | rfl | rfl | rfl <;> decide
    obtain ⟨⟨w, h1, h2⟩, h3⟩ := ih
    rw [List.cons_append, outside_plain hp, ending_plain hp, h2, h3]
    exact ⟨⟨c :: w, fun d hd => (List.mem_cons.1 hd).elim (fun e => e ▸ ha) (h1 d), rfl⟩, rfl⟩
  | @line b t hb _ ih =>
    have := outside_line hb (t ++ s)
    have e : c!"//" ++ b ++ c!"\n" ++ t ++ s = '/' :: '/' :: (b ++ '\n' :: (t ++ s)) := by simp
    rw [e, outside, ending, this.1, this.2]
    exact ih
  | @block b t hb _ ih =>
    have := outside_block hb (t ++ s)
    have e : c!"/*" ++ b ++ c!"*/" ++ t ++ s = '/' :: '*' :: (b ++ '*' :: '/' :: (t ++ s)) := by simp
    rw [e, outside, ending, this.1, this.2]
    exact ih

/-- The characters in a regular expression. -/
def Spec.Regex.Uses : Regex → Char → Prop
  | .cls p, c => p c
  | .eps, _ => False
  | .seq a b, c | .alt a b, c => a.Uses c ∨ b.Uses c
  | .star a, c => a.Uses c

theorem Spec.Regex.Matches.uses {r : Regex} {w : Str} (h : r.Matches w) : ∀ c ∈ w, r.Uses c := by
  induction h with
  | cls h => simpa [Regex.Uses] using h
  | eps | starNil => simp
  | seq _ _ ih1 ih2 =>
    intro c hc
    exact (List.mem_append.1 hc).imp (ih1 c) (ih2 c)
  | left _ ih => exact fun c hc => .inl (ih c hc)
  | right _ ih => exact fun c hc => .inr (ih c hc)
  | starCons _ _ ih1 ih2 =>
    intro c hc
    exact (List.mem_append.1 hc).elim (ih1 c) (ih2 c)

theorem range_alphabet {a b : Nat} (h : ∀ n < 127, a ≤ n → n ≤ b → Char.ofNat n ∈ alphabet) (hb : b < 127) {c : Char}
    (h1 : a ≤ c.toNat) (h2 : c.toNat ≤ b) : c ∈ alphabet := by
  have := h c.toNat (by omega) h1 h2
  rwa [Char.ofNat_toNat] at this

theorem digit_alphabet {c : Char} (h : '0' ≤ c ∧ c ≤ '9') : c ∈ alphabet :=
  range_alphabet (a := 48) (b := 57) (by decide +kernel) (by decide) h.1 h.2
theorem upper_alphabet {c : Char} (h : 'A' ≤ c ∧ c ≤ 'Z') : c ∈ alphabet :=
  range_alphabet (a := 65) (b := 90) (by decide +kernel) (by decide) h.1 h.2
theorem lower_alphabet {c : Char} (h : 'a' ≤ c ∧ c ≤ 'z') : c ∈ alphabet :=
  range_alphabet (a := 97) (b := 122) (by decide +kernel) (by decide) h.1 h.2

theorem name_alphabet {c : Char}
    (h : ('0' ≤ c ∧ c ≤ '9') ∨ ('A' ≤ c ∧ c ≤ 'Z') ∨ ('a' ≤ c ∧ c ≤ 'z') ∨ c = '_' ∨ c = '-') : c ∈ alphabet := by
  rcases h with h | h | h | rfl | rfl
  · exact digit_alphabet h
  · exact upper_alphabet h
  · exact lower_alphabet h
  · decide
  · decide

theorem uses_identifier {c : Char} (h : Regex.identifier.Uses c) : c ∈ alphabet := by
  simp only [Regex.identifier, Regex.opt, Regex.chr, Regex.word, Regex.letter, Regex.nameChar, Regex.Uses] at h
  refine name_alphabet ?_
  grind

theorem digit1_digit {c : Char} (h : '1' ≤ c ∧ c ≤ '9') : '0' ≤ c ∧ c ≤ '9' :=
  ⟨Nat.le_trans (show 48 ≤ 49 by omega) h.1, h.2⟩
theorem oct_digit {c : Char} (h : '0' ≤ c ∧ c ≤ '7') : '0' ≤ c ∧ c ≤ '9' :=
  ⟨h.1, Nat.le_trans h.2 (show 55 ≤ 57 by omega)⟩
theorem hex_upper {c : Char} (h : 'A' ≤ c ∧ c ≤ 'F') : 'A' ≤ c ∧ c ≤ 'Z' :=
  ⟨h.1, Nat.le_trans h.2 (show 70 ≤ 90 by omega)⟩
theorem hex_lower {c : Char} (h : 'a' ≤ c ∧ c ≤ 'f') : 'a' ≤ c ∧ c ≤ 'z' :=
  ⟨h.1, Nat.le_trans h.2 (show 102 ≤ 122 by omega)⟩

theorem uses_numeral {w : Str} (h : Numeral w) : ∀ c ∈ w, c ∈ alphabet := by
  intro c hc
  rcases h with h | h | h | h <;> have h := h.uses c hc <;>
    simp only [Regex.dec, Regex.hex, Regex.oct, Regex.float, Regex.exponent, Regex.plus, Regex.opt, Regex.chr,
      Regex.digit, Regex.digit1, Regex.octDigit, Regex.hexDigit, Regex.Uses, or_false, or_self, or_assoc] at h
  · rcases h with rfl | h | h
    · decide
    · exact digit_alphabet (digit1_digit h)
    · exact digit_alphabet h
  · rcases h with rfl | rfl | rfl | rfl | h | h | h
    · decide
    · decide
    · decide
    · decide
    · exact digit_alphabet h
    · exact upper_alphabet (hex_upper h)
    · exact lower_alphabet (hex_lower h)
  · rcases h with rfl | rfl | h
    · decide
    · decide
    · exact digit_alphabet (oct_digit h)
  · have : ('0' ≤ c ∧ c ≤ '9') ∨ c ∈ ['-', '+', 'e', 'E', '.'] := by
      simp only [List.mem_cons, List.not_mem_nil]
      grind
    rcases this with h | h
    · exact digit_alphabet h
    · simp only [List.mem_cons, List.not_mem_nil, or_false] at h
      rcases h with rfl | rfl | rfl | rfl | rfl <;> decide

theorem punctuation_alphabet : ∀ w ∈ punctuation, ∀ c ∈ w, c ∈ alphabet := by decide +kernel

theorem alphabet_plain : ∀ c ∈ alphabet, CodeChar c := by
  have : ∀ c ∈ alphabet, c ≠ '"' ∧ c ≠ '/' := by decide +kernel
  exact this

theorem outside_item {w : Str} (h : Item w) (s : Str) :
    (∃ u, (∀ c ∈ u, c ∈ alphabet) ∧ outside .code (w ++ s) = u ++ outside .code s) ∧
      ending .code (w ++ s) = ending .code s := by
  have key (hw : ∀ c ∈ w, c ∈ alphabet) : (∃ u, (∀ c ∈ u, c ∈ alphabet) ∧ outside .code (w ++ s) = u ++ outside .code s) ∧
      ending .code (w ++ s) = ending .code s := by
    have := outside_plains (fun c hc => alphabet_plain c (hw c hc)) s
    exact ⟨⟨w, hw, this.1⟩, this.2⟩
  cases h with
  | word h => exact key fun c hc => uses_identifier (h.uses c hc)
  | negInfinity => exact key (by decide)
  | number h => exact key (uses_numeral h)
  | punct h => exact key (punctuation_alphabet _ h)
  | string h =>
    obtain ⟨v, h1, h2⟩ := string_item.1 h
    simp at h2
    subst h2
    have := outside_string h1 s
    have e : (['"'] ++ v ++ ['"']) ++ s = '"' :: (v ++ '"' :: s) := by simp
    simp only [List.cons_append, List.append_assoc, List.nil_append] at e ⊢
    rw [outside, ending, this.1, this.2]
    exact ⟨⟨[], by simp, rfl⟩, rfl⟩

theorem outside_items {ls : List Str} {s : Str} (h : Items ls s) :
    (∀ c ∈ outside .code s, c ∈ alphabet) ∧ ending .code s = .code := by
  induction h with
  | nil => exact ⟨by simp [outside], rfl⟩
  | @cons w ws t s hw ht _ _ ih =>
    obtain ⟨⟨u, h1, h2⟩, h3⟩ := outside_item hw (t ++ s)
    obtain ⟨⟨v, h4, h5⟩, h6⟩ := outside_trivia ht s
    rw [h2, h3, h5, h6]
    refine ⟨fun c hc => ?_, ih.2⟩
    simp only [List.mem_append] at hc
    rcases hc with hc | hc | hc
    · exact h1 c hc
    · exact h4 c hc
    · exact ih.1 c hc

theorem outside_lexes {ls : List Str} {s : Str} (h : Lexes s ls) :
    (∀ c ∈ outside .code s, c ∈ alphabet) ∧ ending .code s = .code := by
  obtain ⟨t, b, rfl, ht, hb⟩ := h
  obtain ⟨⟨v, h4, h5⟩, h6⟩ := outside_trivia ht b
  obtain ⟨h1, h2⟩ := outside_items hb
  rw [h5, h6]
  refine ⟨fun c hc => ?_, h2⟩
  rcases List.mem_append.1 hc with hc | hc
  · exact h4 c hc
  · exact h1 c hc

/-- A character in code is found. -/
theorem mem_outside {c : Char} (hc : CodeChar c) (hs : c ≠ '*') (b : Str) (m : Inside) (a : Str) (h : ending m a = .code) :
    c ∈ outside m (a ++ c :: b) := by
  induction m, a using ending.induct generalizing b <;>
    simp_all [ending, outside, outside_plain hc]
  case case4 d s h1 h2 h3 ih =>
    have : ∀ e, e ≠ c → ∀ s', s ++ c :: b = e :: s' → ∃ s', s = e :: s' := by
      intro e he s' hs'
      cases s with
      | nil => simp at hs'; exact absurd hs'.1.symm he
      | cons x s => simp at hs'; exact ⟨s, by simp [hs'.1]⟩
    rw [outside]
    · exact List.mem_cons_of_mem _ (ih b)
    · exact h1
    · intro s' hd e
      obtain ⟨s', e⟩ := this _ (fun h => hc.2 h.symm) _ e
      exact h2 s' hd e
    · intro s' hd e
      obtain ⟨s', e⟩ := this _ (fun h => hs h.symm) _ e
      exact h3 s' hd e
  case case10 d s h1 ih =>
    rw [outside]
    · exact ih b
    · intro s' hd e
      cases s with
      | nil => simp at e; exact hc.2 e.1
      | cons x s => simp at e; exact h1 s hd (by simp [e.1])

end Verif
