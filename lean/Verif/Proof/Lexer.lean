import Verif.Proof.Lexing

/-!
# Checking the items of a text

`lexes s ls` computes whether the text `s` consists of the items `ls`. It is used to show that concrete texts meet
the hypotheses of the theorems.
-/

namespace Verif
open Nom Spec

instance (c : Char) : Decidable (NameChar c) := inferInstanceAs (Decidable (_ ∨ _))

/-- The leaf reads all of `w`. -/
def whole {α : Type} (l : Leaf α) (w : Str) : Bool :=
  match core l w with
  | .ok [] _ => true
  | _ => false

theorem whole_sound {α : Type} {l : Leaf α} {w : Str} (h : whole l w = true) : ∃ v, LeafText l w v := by
  unfold whole at h
  split at h
  · rename_i v h'
    obtain ⟨w', h1, h2, -⟩ := core_ok_iff.1 h'
    simp at h1
    exact ⟨v, h1 ▸ h2⟩
  · cases h

def isItem (w : Str) : Bool :=
  whole .ident w || w == c!"-Infinity" || whole .string w || whole .dec w || whole .hex w || whole .oct w ||
    whole .float w || punctuation.contains w

theorem isItem_sound {w : Str} (h : isItem w = true) : Item w := by
  simp only [isItem, Bool.or_eq_true] at h
  rcases h with ((((((h | h) | h) | h) | h) | h) | h) | h
  · obtain ⟨v, h1, h2⟩ := whole_sound h
    exact .word (identifier_name.2 ⟨v, h2, by rcases h1 with rfl | rfl <;> simp⟩)
  · simp at h
    exact h ▸ .negInfinity
  · obtain ⟨v, h1, h2⟩ := whole_sound h
    exact .string (string_item.2 ⟨v, h2, by rw [h1]⟩)
  · obtain ⟨v, rfl, h2⟩ := whole_sound h
    exact .number (.inl h2)
  · obtain ⟨v, rfl, h2⟩ := whole_sound h
    exact .number (.inr (.inl h2))
  · obtain ⟨v, rfl, h2⟩ := whole_sound h
    exact .number (.inr (.inr (.inl h2)))
  · obtain ⟨v, rfl, h2⟩ := whole_sound h
    exact .number (.inr (.inr (.inr h2)))
  · exact .punct (by simpa using h)

def letter (c : Char) : Bool := c = '_' || c.isAlpha
def numberStart (c : Char) : Bool := c = '-' || c = '.' || decide ('0' ≤ c ∧ c ≤ '9')

def isSeparate (w e : Str) : Bool :=
  (match w.getLast?, e.head? with
    | some c, some d => !(decide (NameChar c) && decide (NameChar d))
    | _, _ => true) &&
  (match w.head?, e.head? with
    | some c, some d => !numberStart c || (!decide (NameChar d) && d != '.' && d != '+')
    | _, _ => true)

theorem isSeparate_sound {w e : Str} (h : isSeparate w e = true) : Separate w e := by
  simp only [isSeparate, Bool.and_eq_true] at h
  obtain ⟨h1, h2⟩ := h
  refine ⟨fun c d hc hd hn hn' => ?_, fun hn d hd => ?_⟩
  · rw [hc, hd] at h1
    simp [hn, hn'] at h1
  · obtain ⟨c, v, rfl, hc⟩ := Number.first hn
    have : numberStart c = true := by
      unfold numberStart
      rcases hc with hc | rfl | rfl
      · unfold IsDig at hc
        simp [hc]
      · rfl
      · rfl
    rw [hd] at h2
    simp [this] at h2
    exact ⟨h2.1.1, h2.1.2, h2.2⟩

def items : List Str → Str → Bool
  | [], s => s.isEmpty
  | w :: ws, s => isItem w && w.isPrefixOf s && isSeparate w (s.drop w.length) && items ws (strip (s.drop w.length))

theorem items_sound : ∀ {ls : List Str} {s : Str}, items ls s = true → Items ls s
  | [], s, h => by
    simp [items] at h
    exact h ▸ .nil
  | w :: ws, s, h => by
    simp only [items, Bool.and_eq_true] at h
    obtain ⟨⟨⟨h1, h2⟩, h3⟩, h4⟩ := h
    obtain ⟨e, rfl⟩ := List.isPrefixOf_iff_prefix.1 h2
    simp only [List.drop_left] at h3 h4
    obtain ⟨t, h5, h6, -⟩ := skips_strip e
    have h3 := isSeparate_sound h3
    have := Items.cons (isItem_sound h1) h6 (items_sound h4) (h5 ▸ h3)
    rw [← h5] at this
    exact this

def lexes (s : Str) (ls : List Str) : Bool := items ls (strip s)

theorem lexes_sound {s : Str} {ls : List Str} (h : lexes s ls = true) : Lexes s ls := by
  obtain ⟨t, h5, h6, -⟩ := skips_strip s
  exact ⟨t, strip s, h5, h6, items_sound h⟩

example : Lexes c!"[A] /**/ interface B { const long x = -1.5e3; };" [c!"[", c!"A", c!"]", c!"interface", c!"B",
    c!"{", c!"const", c!"long", c!"x", c!"=", c!"-1.5e3", c!";", c!"}", c!";"] := lexes_sound (by decide +kernel)

/-- Whether the text `b` begins with the lexemes `ws`, each followed by trivia, and then comes `r`. -/
def begins (r : Str) : List Str → Str → Bool
  | [], b => b == r
  | w :: ws, b => w.isPrefixOf b && (match w.getLast?, (b.drop w.length).head? with
      | some c, some d => !(decide (NameChar c) && decide (NameChar d))
      | _, _ => true) && begins r ws (strip (b.drop w.length))

theorem begins_sound {r : Str} : ∀ {ws : List Str} {s : Str}, begins r ws (strip s) = true → Begins ws s r := by
  have key : ∀ {ws : List Str} {b : Str}, begins r ws b = true → TextThen r ws b := by
    intro ws
    induction ws with
    | nil =>
      intro b h
      simp [begins] at h
      exact h ▸ .nil
    | cons w ws ih =>
      intro b h
      simp only [begins, Bool.and_eq_true, List.isPrefixOf_iff_prefix] at h
      obtain ⟨⟨⟨e, rfl⟩, h2⟩, h3⟩ := h
      simp only [List.drop_left] at h2 h3
      obtain ⟨t, h4, h5, -⟩ := skips_strip e
      have h6 : Apart w (t ++ strip e) := by
        rw [← h4]
        intro c d hc hd hn hn'
        rw [hc, hd] at h2
        simp [hn, hn'] at h2
      have := TextThen.cons h5 (ih h3) h6
      rwa [← h4] at this
  intro ws s h
  obtain ⟨t, h4, h5, -⟩ := skips_strip s
  exact ⟨t, _, h4, h5, key h⟩

end Verif
