import Verif.Proof.Good

/-!
# Reading lexemes from characters
-/

namespace Verif
open Nom Spec

/-- The leaves other than the terminals `.` and `-`, which the grammar does not use. -/
def Plain {α : Type} : Leaf α → Prop
  | .punct p => p ≠ .dot ∧ p ≠ .minus
  | _ => True

/-- What may follow a complete value. -/
def closers : List Str := [c!";", c!",", c!")", c!"]", c!"}", c!">"]

theorem Stop.closer {p : Str} (h : Stop p) : p ∈ closers := by
  simp [Stop] at h
  rcases h with rfl | rfl | rfl <;> decide

theorem solid_closer {p : Str} (h : p ∈ closers) : Solid p := by
  simp [closers] at h
  rcases h with rfl | rfl | rfl | rfl | rfl | rfl
  · exact solid_punct (p := .semiColon) (by decide) (by decide)
  · exact solid_punct (p := .comma) (by decide) (by decide)
  · exact solid_punct (p := .closeParen) (by decide) (by decide)
  · exact solid_punct (p := .closeBracket) (by decide) (by decide)
  · exact solid_punct (p := .closeBrace) (by decide) (by decide)
  · exact solid_punct (p := .greaterThan) (by decide) (by decide)

/-- Nothing, or one of `;` `,` `)` `]` `}` `>`, is next. -/
def StopAt {σ : Type} (Step : List σ → Str → List σ → Prop) (r : List σ) : Prop :=
  r = [] ∨ ∃ p r', p ∈ closers ∧ Step r p r'

theorem Stop.at {σ : Type} {Step : List σ → Str → List σ → Prop} {r r' : List σ} {p : Str} (h : Stop p)
    (h' : Step r p r') : StopAt Step r := .inr ⟨p, r', h.closer, h'⟩

/-- Reading with leaves that are exact on whole lexemes. -/
structure Exact {σ : Type} [DecidableEq σ] (leaf : ∀ α, Leaf α → P σ α)
    (Step : List σ → Str → List σ → Prop) : Prop extends Stepping leaf Step where
  fine : ∀ α l u, Fine true u (leaf α l u)
  solid : ∀ {s w r}, Solid w → Step s w r → ∀ {α} (l : Leaf α), Plain l →
    (∃ v, LeafText l w v ∧ leaf α l s = .ok r v) ∨ ((∀ v, ¬ LeafText l w v) ∧ Fails (leaf α l) s)
  num : ∀ {s w r}, Number w → Step s w r → StopAt Step r →
    (∀ k, Fails (leaf Unit (.kw k)) s) ∧ (∀ q, Plain (.punct q) → Fails (leaf Unit (.punct q)) s) ∧
    Fails (leaf Str .ident) s ∧ Fails (leaf Str .string) s
  float : ∀ {s w r}, Regex.float.Matches w → Step s w r → StopAt Step r →
    leaf Str .float s = .ok r w
  dec : ∀ {s w r}, Regex.dec.Matches w → Step s w r → StopAt Step r →
    Fails (leaf Str .float) s ∧ leaf Str .dec s = .ok r w
  hex : ∀ {s w r}, Regex.hex.Matches w → Step s w r → StopAt Step r →
    Fails (leaf Str .float) s ∧ Fails (leaf Str .dec) s ∧ leaf Str .hex s = .ok r w
  oct : ∀ {s w r}, Regex.oct.Matches w → Step s w r → StopAt Step r →
    Fails (leaf Str .float) s ∧ Fails (leaf Str .dec) s ∧ Fails (leaf Str .hex) s ∧
      leaf Str .oct s = .ok r w
  uniq : ∀ {s w r w' r'}, Step s w r → Step s w' r' →
    (Solid w ∨ Number w ∧ StopAt Step r) → (Solid w' ∨ Number w' ∧ StopAt Step r') → w = w'
  eof : ∀ {w r}, Solid w → ¬ Step [] w r

/-- Words end only where no name character follows. -/
def Wordy (w : Str) : Prop := (∃ i, name i [w]) ∨ w = c!"-Infinity"

/-- The lexeme `w` is next in `s` after trivia, and `r` is what remains after it and trivia. -/
def CStep (s w r : Str) : Prop := ∃ e, strip s = w ++ e ∧ (Wordy w → NameEnd e) ∧ r = strip e

theorem name_chars {i w : Str} (h : name i [w]) : ∃ c v, w = c :: v ∧ (c.isAlpha = true ∨ c = '_') ∧
    ∀ x ∈ w, isIdentChar x = true := by
  obtain ⟨h1, h2⟩ := h
  obtain ⟨c, v, rfl, h3, h4⟩ := word_cons h1
  simp at h2
  rcases h2 with rfl | rfl
  · exact ⟨c, v, rfl, .inl h3, h4⟩
  · refine ⟨'_', _, rfl, .inr rfl, ?_⟩
    intro x hx
    simp at hx
    rcases hx with rfl | hx
    · decide
    · exact h4 x (by simpa using hx)

/-- The first character of a number. -/
theorem Number.first {w : Str} (h : Number w) : ∃ c v, w = c :: v ∧ (IsDig c ∨ c = '.' ∨ c = '-') := by
  obtain ⟨g, c, v, rfl, hg, hc⟩ := h.head
  rcases hg with rfl | rfl
  · exact ⟨c, v, rfl, hc.imp_right (fun h => .inl h.1)⟩
  · exact ⟨'-', c :: v, rfl, .inr (.inr rfl)⟩

theorem Number.not_wordy {w : Str} (h : Number w) : ¬ Wordy w := by
  rintro (⟨i, h'⟩ | rfl)
  · obtain ⟨c, v, rfl, h1, -⟩ := name_chars h'
    obtain ⟨c', v', h2, h3⟩ := h.first
    simp at h2
    obtain ⟨rfl, rfl⟩ := h2
    rw [isAlpha_iff] at h1
    unfold IsDig at h3
    simp only [Char.le_def, UInt32.le_iff_toNat_le] at h1 h3
    rcases h1 with h1 | rfl
    · rcases h3 with h3 | rfl | rfl
      · have : 'A'.val.toNat = 65 := rfl
        have : '9'.val.toNat = 57 := rfl
        have : 'a'.val.toNat = 97 := rfl
        omega
      · revert h1; decide
      · revert h1; decide
    · revert h3; decide
  · obtain ⟨g, c, v, h1, hg, hc⟩ := h.head
    rcases hg with rfl | rfl
    · simp at h1
      obtain ⟨rfl, rfl⟩ := h1
      revert hc; simp; decide
    · simp at h1
      obtain ⟨rfl, rfl⟩ := h1
      revert hc; simp; decide

theorem punct_not_wordy {p : Punct} : ¬ Wordy p.text := by
  rintro (⟨i, h'⟩ | h)
  · exact name_ne_punct h'
  · cases p <;> simp [Punct.text] at h

theorem string_not_wordy {v : Str} : ¬ Wordy ('"' :: v ++ ['"']) := by
  rintro (⟨i, h'⟩ | h)
  · obtain ⟨c, v, h, h1, -⟩ := name_chars h'
    simp at h
    obtain ⟨rfl, -⟩ := h
    revert h1; decide
  · simp at h

/-- The first character of a text of a leaf. -/
def First {α : Type} (l : Leaf α) (c : Char) : Prop :=
  match l with
  | .punct p => p.text.head? = some c
  | .kw k => k.text.head? = some c
  | .ident => c.isAlpha = true ∨ c = '_'
  | .string => c = '"'
  | _ => IsDig c ∨ c = '.' ∨ c = '-'

theorem leafText_first {α : Type} {l : Leaf α} {w : Str} {v : α} (h : LeafText l w v) :
    ∃ c w', w = c :: w' ∧ First l c := by
  cases l with
  | punct p => cases h; cases p <;> exact ⟨_, _, rfl, rfl⟩
  | kw k => cases h; cases k <;> exact ⟨_, _, rfl, rfl⟩
  | ident =>
    obtain ⟨c, w', rfl, h1, -⟩ := name_chars (i := v) (w := w) ⟨h.2, by simpa using h.1⟩
    exact ⟨c, w', rfl, h1⟩
  | string => exact ⟨'"', _, h.1, rfl⟩
  | dec => exact (show Number w from h.1 ▸ .inl h.2).first
  | hex => exact (show Number w from h.1 ▸ .inr (.inl h.2)).first
  | oct => exact (show Number w from h.1 ▸ .inr (.inr (.inl h.2))).first
  | float => exact (show Number w from h.1 ▸ .inr (.inr (.inr h.2))).first

/-- `l` reads `w`, or no text of `l` is at the beginning. -/
def Reader {α : Type} (l : Leaf α) (w e : Str) : Prop :=
  (∃ v, LeafText l w v ∧ LeafEnd l w e) ∨
    ((∀ v, ¬ LeafText l w v) ∧ ∀ w' e' v, w ++ e = w' ++ e' → LeafText l w' v → ¬ LeafEnd l w' e')

theorem Reader.first {α : Type} {l : Leaf α} {c : Char} {w e : Str} (h : ¬ First l c) :
    Reader l (c :: w) e := by
  refine .inr ⟨fun v hv => ?_, fun w' e' v h1 h2 => ?_⟩
  · obtain ⟨c', w', h1, h2⟩ := leafText_first hv
    simp at h1
    exact h (h1.1 ▸ h2)
  · obtain ⟨c', w', rfl, h3⟩ := leafText_first h2
    simp at h1
    exact absurd (h1.1 ▸ h3) h

theorem Reader.never {α : Type} {l : Leaf α} {w e : Str}
    (h : ∀ w' e' v, w ++ e = w' ++ e' → LeafText l w' v → ¬ LeafEnd l w' e')
    (h' : ∀ v, ¬ LeafText l w v) : Reader l w e := .inr ⟨h', h⟩

theorem nameEnd_inj {w e w' e' : Str} (h : w ++ e = w' ++ e') (hw : ∀ x ∈ w, isIdentChar x = true)
    (hw' : ∀ x ∈ w', isIdentChar x = true) (he : NameEnd e) (he' : NameEnd e') : w = w' := by
  have h1 := (takeWhile_nameEnd hw he).1
  have h2 := (takeWhile_nameEnd hw' he').1
  rw [h, h2] at h1
  exact h1.symm

theorem kw_chars (k : Kw) : ∀ x ∈ k.text, isIdentChar x = true := by
  cases k <;> decide

theorem reader_name {α : Type} {l : Leaf α} {i w e : Str} (h : name i [w]) (he : NameEnd e) :
    Reader l w e := by
  obtain ⟨c, v, hw, hc, hx⟩ := name_chars h
  have dig : ¬ (IsDig c ∨ c = '.' ∨ c = '-') := by
    intro h'
    rcases hc with hc | rfl
    · rw [isAlpha_iff] at hc
      unfold IsDig at h'
      rcases h' with h' | rfl | rfl
      · simp only [Char.le_def, UInt32.le_iff_toNat_le] at hc h'
        have : 'A'.val.toNat = 65 := rfl
        have : '9'.val.toNat = 57 := rfl
        have : 'a'.val.toNat = 97 := rfl
        omega
      · revert hc; decide
      · revert hc; decide
    · revert h'; decide
  cases l with
  | punct p =>
    subst hw
    refine .first ?_
    rintro h'
    cases p <;> simp [First, Punct.text] at h' <;> subst h' <;> revert hc <;> decide
  | kw k =>
    by_cases hk : w = k.text
    · exact .inl ⟨(), hk, he⟩
    · refine .never ?_ fun _ => hk
      rintro w' e' v h1 rfl h2
      exact hk (nameEnd_inj h1 hx (kw_chars k) he h2)
  | ident => exact .inl ⟨i, ⟨by simpa using h.2, h.1⟩, he⟩
  | string =>
    subst hw
    refine .first ?_
    rintro rfl
    revert hc; decide
  | dec => subst hw; exact .first dig
  | hex => subst hw; exact .first dig
  | oct => subst hw; exact .first dig
  | float => subst hw; exact .first dig

theorem number_negInf {w' e e' : Str} (h1 : c!"-Infinity" ++ e = w' ++ e') (h2 : Number w') : False := by
  obtain ⟨g, c, v, rfl, hg, hc⟩ := h2.head
  rcases hg with rfl | rfl
  · simp at h1
    obtain ⟨rfl, h1⟩ := h1
    revert hc; simp; decide
  · simp at h1
    obtain ⟨rfl, h1⟩ := h1
    revert hc; simp; decide

theorem number_ellipsis {w' e e' : Str} (h1 : c!"..." ++ e = w' ++ e') (h2 : Number w') : False := by
  obtain ⟨g, c, v, rfl, hg, hc⟩ := h2.head
  rcases hg with rfl | rfl
  · simp at h1
    obtain ⟨rfl, h1⟩ := h1
    rcases hc with hc | ⟨-, d, v', rfl, hd⟩
    · revert hc; decide
    · simp at h1
      obtain ⟨rfl, -⟩ := h1
      revert hd; decide
  · simp at h1

theorem Reader.noNumber {l : Leaf Str} {w e : Str} (hl : ∀ w v, LeafText l w v → Number w)
    (h : ∀ w' e', w ++ e = w' ++ e' → ¬ Number w') : Reader l w e :=
  .never (fun w' e' v h1 h2 _ => h w' e' h1 (hl w' v h2))
    fun v hv => h w e rfl (hl w v hv)

theorem dec_number (w v : Str) (h : LeafText .dec w v) : Number w := h.1 ▸ .inl h.2
theorem hex_number (w v : Str) (h : LeafText .hex w v) : Number w := h.1 ▸ .inr (.inl h.2)
theorem oct_number (w v : Str) (h : LeafText .oct w v) : Number w := h.1 ▸ .inr (.inr (.inl h.2))
theorem float_number (w v : Str) (h : LeafText .float w v) : Number w := h.1 ▸ .inr (.inr (.inr h.2))

theorem reader_negInf {α : Type} {l : Leaf α} {e : Str} (hl : Plain l) (he : NameEnd e) :
    Reader l c!"-Infinity" e := by
  cases l with
  | punct p => refine .first ?_; cases p <;> simp_all [First, Punct.text, Plain]
  | kw k =>
    by_cases hk : k = .negInfinity
    · exact .inl ⟨(), by rw [hk]; rfl, he⟩
    · refine .first ?_
      cases k <;> simp_all [First, Kw.text]
  | ident => refine .first ?_; simp only [First]; decide
  | string => refine .first ?_; simp only [First]; decide
  | dec => exact .noNumber dec_number fun _ _ h h' => number_negInf h h'
  | hex => exact .noNumber hex_number fun _ _ h h' => number_negInf h h'
  | oct => exact .noNumber oct_number fun _ _ h h' => number_negInf h h'
  | float => exact .noNumber float_number fun _ _ h h' => number_negInf h h'

theorem reader_string {α : Type} {l : Leaf α} {u e : Str} (hu : '"' ∉ u) :
    Reader l ('"' :: u ++ ['"']) e := by
  cases l with
  | punct p => refine .first ?_; cases p <;> simp_all [First, Punct.text]
  | kw k => refine .first ?_; cases k <;> simp_all [First, Kw.text]
  | ident => refine .first ?_; simp only [First]; decide
  | string => exact .inl ⟨u, ⟨rfl, hu⟩, trivial⟩
  | dec => refine .first ?_; simp only [First]; decide
  | hex => refine .first ?_; simp only [First]; decide
  | oct => refine .first ?_; simp only [First]; decide
  | float => refine .first ?_; simp only [First]; decide

theorem number_punct {p : Punct} {w' e e' : Str} (hp : p ≠ .dot ∧ p ≠ .minus)
    (h1 : p.text ++ e = w' ++ e') (h2 : Number w') : False := by
  by_cases h : p = .ellipsis
  · subst h; exact number_ellipsis h1 h2
  · obtain ⟨c, v, rfl, hc⟩ := h2.first
    cases p <;> simp [Punct.text] at h1 h hp <;> obtain ⟨rfl, h1⟩ := h1 <;> revert hc <;> decide

theorem reader_punct {α : Type} {l : Leaf α} {p : Punct} {e : Str} (hl : Plain l)
    (hp : p ≠ .dot ∧ p ≠ .minus) : Reader l p.text e := by
  cases l with
  | punct q =>
    by_cases h : q = p
    · subst h; exact .inl ⟨(), rfl, trivial⟩
    · cases p <;> refine .first ?_ <;> cases q <;> simp_all [First, Punct.text, Plain]
  | kw k =>
    cases p <;> refine .first ?_ <;> cases k <;> simp_all [First, Kw.text, Plain]
  | ident => cases p <;> refine .first ?_ <;> simp only [First] <;> decide
  | string => cases p <;> refine .first ?_ <;> simp only [First] <;> decide
  | dec => exact .noNumber dec_number fun _ _ h h' => number_punct hp h h'
  | hex => exact .noNumber hex_number fun _ _ h h' => number_punct hp h h'
  | oct => exact .noNumber oct_number fun _ _ h h' => number_punct hp h h'
  | float => exact .noNumber float_number fun _ _ h h' => number_punct hp h h'

theorem reader_solid {α : Type} {l : Leaf α} {w e : Str} (hl : Plain l) (h : Solid w)
    (he : Wordy w → NameEnd e) : Reader l w e := by
  rcases h with ⟨i, h⟩ | rfl | ⟨v, h, h'⟩ | ⟨p, h1, h2, rfl⟩
  · exact reader_name h (he (.inl ⟨i, h⟩))
  · exact reader_negInf hl (he (.inr rfl))
  · cases h'
    exact reader_string h
  · exact reader_punct hl ⟨h1, h2⟩

/-! ## The leaves in terms of `Reader` -/

theorem charLeaf_fails {α : Type} {l : Leaf α} {s : Str}
    (h : ∀ w e v, strip s = w ++ e → LeafText l w v → ¬ LeafEnd l w e) : Fails (charLeaf α l) s := by
  have hf := charLeaf_fine α l s
  cases e : charLeaf α l s with
  | ok r v =>
    obtain ⟨w, e', h1, h2, h3, -⟩ := charLeaf_ok_iff.1 e
    exact absurd h3 (h w e' v h1 h2)
  | diverge => rw [e] at hf; exact hf.elim
  | err e' =>
    rw [e] at hf
    cases e' with
    | error p k => exact ⟨p, k, e⟩
    | _ => exact hf.elim

theorem Reader.charLeaf {α : Type} {l : Leaf α} {s w e : Str} (h : Reader l w e)
    (hs : strip s = w ++ e) : (∃ v, LeafText l w v ∧ charLeaf α l s = .ok (strip e) v) ∨
      ((∀ v, ¬ LeafText l w v) ∧ Fails (charLeaf α l) s) := by
  rcases h with ⟨v, h1, h2⟩ | ⟨h1, h2⟩
  · exact .inl ⟨v, h1, charLeaf_ok_iff.2 ⟨w, e, hs, h1, h2, rfl⟩⟩
  · exact .inr ⟨h1, charLeaf_fails fun w' e' v h3 h4 => h2 w' e' v (hs ▸ h3) h4⟩

theorem leafText_wordy {α : Type} {l : Leaf α} {w e : Str} {v : α} (h : LeafText l w v)
    (he : LeafEnd l w e) (hw : Wordy w) : NameEnd e := by
  cases l with
  | punct p => cases h; exact absurd hw punct_not_wordy
  | kw k => exact he
  | ident => exact he
  | string => exact absurd (h.1 ▸ hw) string_not_wordy
  | dec => exact absurd hw (dec_number w v h).not_wordy
  | hex => exact absurd hw (hex_number w v h).not_wordy
  | oct => exact absurd hw (oct_number w v h).not_wordy
  | float => exact absurd hw (float_number w v h).not_wordy

theorem kw_wordy (k : Kw) : Wordy k.text := by
  by_cases h : k = .negInfinity
  · subst h; exact .inr rfl
  · exact .inl ⟨k.text, kw_word k h, .inl rfl⟩

/-- What directly follows a lexeme in front of the end of a value. -/
theorem stopAt_head {e : Str} (h : StopAt CStep (strip e)) :
    ∀ c e', e = c :: e' → c ∈ [';', ',', ')', ']', '}', '>', ' ', '\t', '\n', '\r', '/'] := by
  obtain ⟨t, h2, h3, -⟩ := skips_strip e
  rintro c e'' rfl
  cases h3 with
  | nil =>
    rcases h with h | ⟨p, m, hp, e', h1, -, -⟩
    · rw [h] at h2; cases h2
    · rw [strip_strip] at h1
      rw [h1] at h2
      simp [closers] at hp
      rcases hp with rfl | rfl | rfl | rfl | rfl | rfl <;> simp at h2 <;> simp [h2]
  | white hc => simp at h2 hc; obtain ⟨rfl, -⟩ := h2; rcases hc with rfl | rfl | rfl | rfl <;> decide
  | line => simp at h2; simp [h2]
  | block => simp at h2; simp [h2]

theorem stopAt_numEnd {e : Str} (h : StopAt CStep (strip e)) : NumEnd e := by
  intro c e' he
  have np : ∀ c ∈ [';', ',', ')', ']', '}', '>', ' ', '\t', '\n', '\r', '/'], ¬ NumChar c := by
    unfold NumChar; decide
  exact np c (stopAt_head h c e' he)

theorem stopAt_nameEnd {e : Str} (h : StopAt CStep (strip e)) : NameEnd e := by
  intro c e' he
  have np : ∀ c ∈ [';', ',', ')', ']', '}', '>', ' ', '\t', '\n', '\r', '/'], isIdentChar c = false := by
    decide
  exact np c (stopAt_head h c e' he)

theorem not_number {c : Char} (h : c.isAlpha = true ∨ c = '_' ∨ c = '"') :
    ¬ (IsDig c ∨ c = '.' ∨ c = '-') := by
  intro h'
  rcases h with hc | rfl | rfl
  · rw [isAlpha_iff] at hc
    unfold IsDig at h'
    rcases h' with h' | rfl | rfl
    · simp only [Char.le_def, UInt32.le_iff_toNat_le] at hc h'
      have : 'A'.val.toNat = 65 := rfl
      have : '9'.val.toNat = 57 := rfl
      have : 'a'.val.toNat = 97 := rfl
      omega
    · revert hc; decide
    · revert hc; decide
  · revert h'; decide
  · revert h'; decide

/-- No number begins where another lexeme does. -/
theorem number_solid {w e w' e' : Str} (h : Solid w) (hn : Number w') (h1 : w ++ e = w' ++ e') :
    False := by
  rcases h with ⟨i, h⟩ | rfl | ⟨v, h, h'⟩ | ⟨p, hp, hp', rfl⟩
  · obtain ⟨c, v, rfl, hc, -⟩ := name_chars h
    obtain ⟨c', v', rfl, hc'⟩ := hn.first
    simp at h1
    obtain ⟨rfl, -⟩ := h1
    exact not_number (by grind) hc'
  · exact number_negInf h1 hn
  · cases h'
    obtain ⟨c', v', rfl, hc'⟩ := hn.first
    simp at h1
    obtain ⟨rfl, -⟩ := h1
    exact not_number (by grind) hc'
  · exact number_punct ⟨hp, hp'⟩ h1 hn

/-- Every lexeme other than a number is the text of a leaf. -/
theorem Solid.leaf {w e : Str} (h : Solid w) (he : Wordy w → NameEnd e) :
    ∃ (α : Type) (l : Leaf α) (v : α), Plain l ∧ LeafText l w v ∧ LeafEnd l w e := by
  rcases h with ⟨i, h⟩ | rfl | ⟨v, h, h'⟩ | ⟨p, hp, hp', rfl⟩
  · exact ⟨Str, .ident, i, trivial, ⟨by simpa using h.2, h.1⟩, he (.inl ⟨i, h⟩)⟩
  · exact ⟨Unit, .kw .negInfinity, (), trivial, rfl, he (.inr rfl)⟩
  · cases h'
    exact ⟨Str, .string, v, trivial, ⟨rfl, h⟩, trivial⟩
  · exact ⟨Unit, .punct p, (), ⟨hp, hp'⟩, rfl, trivial⟩

theorem exact_char : Exact charLeaf CStep where
  ok := by
    intro α l s r v h
    obtain ⟨w, e, h1, h2, h3, rfl⟩ := charLeaf_ok_iff.1 h
    exact ⟨w, ⟨e, h1, leafText_wordy h2 h3, rfl⟩, h2⟩
  kwNo := by
    rintro k s ⟨p, q, h⟩ r ⟨e, h1, h2, rfl⟩
    rw [charLeaf_ok_iff (l := .kw k) (v := ()) |>.2 ⟨k.text, e, h1, rfl, h2 (kw_wordy k), rfl⟩] at h
    cases h
  punctNo := by
    rintro k s ⟨p, q, h⟩ r ⟨e, h1, h2, rfl⟩
    rw [charLeaf_ok_iff (l := .punct k) (v := ()) |>.2 ⟨k.text, e, h1, rfl, trivial, rfl⟩] at h
    cases h
  det := by
    rintro s w r r' ⟨e, h1, -, rfl⟩ ⟨e', h1', -, rfl⟩
    rw [h1] at h1'
    rw [List.append_cancel_left h1']
  exact := by
    rintro s w r i h ⟨e, h1, h2, rfl⟩ α l
    exact (reader_name h (h2 (.inl ⟨i, h⟩))).charLeaf h1
  total := by
    intro α l s
    have hf := charLeaf_fine α l s
    cases e : charLeaf α l s with
    | ok r v => exact .inl ⟨r, v, rfl⟩
    | diverge => rw [e] at hf; exact hf.elim
    | err e' =>
      rw [e] at hf
      cases e' with
      | error p k => exact .inr ⟨p, k, e⟩
      | _ => exact hf.elim
  fine := charLeaf_fine
  solid := by
    rintro s w r h ⟨e, h1, h2, rfl⟩ α l hl
    exact (reader_solid hl h h2).charLeaf h1
  num := by
    rintro s w _ h ⟨e, h1, h2, rfl⟩ h3
    have he := stopAt_numEnd h3
    refine ⟨fun k => ?_, fun q hq => ?_, ?_, ?_⟩ <;>
      refine charLeaf_fails fun w' e' v' h5 h6 _ => number_solid (w := w') ?_ h (h1 ▸ h5.symm)
    · exact h6 ▸ solid_kw k
    · exact h6 ▸ solid_punct hq.1 hq.2
    · exact .inl ⟨v', h6.2, by simpa using h6.1⟩
    · exact .inr (.inr (.inl ⟨v', h6.2, by rw [h6.1]⟩))
  float := by
    rintro s w _ h ⟨e, h1, h2, rfl⟩ h3
    have he := stopAt_numEnd h3
    exact charLeaf_ok_iff.2 ⟨w, e, h1, ⟨rfl, h⟩, Number.longest (fun _ => .inr ∘ .inr ∘ .inr) he, rfl⟩
  dec := by
    rintro s w _ h ⟨e, h1, h2, rfl⟩ h3
    have he := stopAt_numEnd h3
    refine ⟨charLeaf_fails fun w' e' v' h5 h6 _ => ?_,
      charLeaf_ok_iff.2 ⟨w, e, h1, ⟨rfl, h⟩, Number.longest (fun _ => .inl) he, rfl⟩⟩
    exact dec_no_float h ((float_number _ _ h6).prefix he (h1 ▸ h5 ▸ List.prefix_append _ _))
      (h6.1 ▸ h6.2)
  hex := by
    rintro s w _ h ⟨e, h1, h2, rfl⟩ h3
    have he := stopAt_numEnd h3
    refine ⟨charLeaf_fails fun w' e' v' h5 h6 _ => ?_, charLeaf_fails fun w' e' v' h5 h6 _ => ?_,
      charLeaf_ok_iff.2 ⟨w, e, h1, ⟨rfl, h⟩, Number.longest (fun _ => .inr ∘ .inl) he, rfl⟩⟩
    · exact hex_no_float h ((float_number _ _ h6).prefix he (h1 ▸ h5 ▸ List.prefix_append _ _))
        (h6.1 ▸ h6.2)
    · exact hex_no_dec h ((dec_number _ _ h6).prefix he (h1 ▸ h5 ▸ List.prefix_append _ _))
        (h6.1 ▸ h6.2)
  oct := by
    rintro s w _ h ⟨e, h1, h2, rfl⟩ h3
    have he := stopAt_numEnd h3
    refine ⟨charLeaf_fails fun w' e' v' h5 h6 _ => ?_, charLeaf_fails fun w' e' v' h5 h6 _ => ?_,
      charLeaf_fails fun w' e' v' h5 h6 _ => ?_,
      charLeaf_ok_iff.2 ⟨w, e, h1, ⟨rfl, h⟩, Number.longest (fun _ => .inr ∘ .inr ∘ .inl) he, rfl⟩⟩
    · exact oct_no_float h ((float_number _ _ h6).prefix he (h1 ▸ h5 ▸ List.prefix_append _ _))
        (h6.1 ▸ h6.2)
    · exact oct_no_dec h ((dec_number _ _ h6).prefix he (h1 ▸ h5 ▸ List.prefix_append _ _))
        (h6.1 ▸ h6.2)
    · exact oct_no_hex h ((hex_number _ _ h6).prefix he (h1 ▸ h5 ▸ List.prefix_append _ _))
        (h6.1 ▸ h6.2)
  uniq := by
    rintro s w r w' r' ⟨e, h1, h2, rfl⟩ ⟨e', h1', h2', rfl⟩ h h'
    rw [h1] at h1'
    rcases h with h | ⟨h, hm⟩
    · rcases h' with h' | ⟨h', -⟩
      · obtain ⟨α, l, v, h3, h4, h5⟩ := h'.leaf h2'
        rcases reader_solid h3 h h2 with ⟨v', h6, h7⟩ | ⟨-, h6⟩
        · exact (leafText_unique h1' h6 h7 h4 h5).1
        · exact absurd h5 (h6 w' e' v h1' h4)
      · exact (number_solid h h' h1').elim
    · rcases h' with h' | ⟨h', hm'⟩
      · exact (number_solid h' h h1'.symm).elim
      · have a := h.prefix (stopAt_numEnd hm') (h1' ▸ List.prefix_append _ _)
        have b := h'.prefix (stopAt_numEnd hm) (by rw [h1']; exact List.prefix_append _ _)
        exact a.eq_of_length_le b.length_le
  eof := by
    rintro w _ hw ⟨e, h1, -⟩
    have : w = [] := by
      have : strip [] = [] := rfl
      rw [this] at h1
      exact (List.append_eq_nil_iff.1 h1.symm).1
    subst this
    rcases hw with ⟨i, h⟩ | h | ⟨v, h, h'⟩ | ⟨p, -, -, h⟩
    · obtain ⟨c, v, h, -⟩ := name_chars h
      cases h
    · cases h
    · cases h'
    · cases p <;> cases h

end Verif
