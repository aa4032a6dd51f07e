import Verif.Proof.Relayout
import Verif.Proof.Lexer
import Verif.Properties.Grammar

/-! # C71: comments can be removed, and layout made as short as possible -/

namespace Verif.Properties
open Verif Nom Spec

private theorem relayout_nil {f : Char → Str} (hf : Blank f) {s : Str} (hs : NoOpenComment s) (h : relayout f .code s = []) : s = [] := by
  have := items_back hf .nil hs h
  cases this
  rfl

/-- Comments replaced by spaces and white space by other white space: the outcome is the same, for all texts, accepted or not, that
do not end inside a comment. -/
theorem C71_relayout (f : Char → Str) (hf : Blank f) (s : Str) (hs : NoOpenComment s) :
    weedleParse (relayout f .code s) = weedleParse s := by
  have key (ls : List Str) (h : Lexes s ls) (h' : Lexes (relayout f .code s) ls) : weedleParse (relayout f .code s) = weedleParse s := by
    by_cases hl : ls = []
    · subst hl
      obtain ⟨t, b, e, ht, hb⟩ := h
      obtain ⟨t', b', e', ht', hb'⟩ := h'
      cases hb
      cases hb'
      rw [List.append_nil] at e e'
      subst e
      by_cases hn : s = []
      · subst hn
        rfl
      · rw [e', C04_blank s ht hn, C04_blank t' ht' fun h => hn (relayout_nil hf hs (e'.trans h))]
    · exact C18_layout _ _ ls hl h' h
  rcases C02_never_err s with ⟨ds, h⟩ | h
  · obtain ⟨ls, h1, -⟩ := C36_lexes s ds h
    exact key ls h1 (lexes_relayout hf h1)
  · rcases C02_never_err (relayout f .code s) with ⟨ds, h'⟩ | h'
    · obtain ⟨ls, h1, -⟩ := C36_lexes _ ds h'
      exact key ls (lexes_back hf hs h1) h1
    · rw [h, h']

/-- An accepted text does not end inside a comment. -/
theorem C71_accepted (f : Char → Str) (hf : Blank f) (s : Str) (ds : List Definition) (h : weedleParse s = .ok ds) :
    weedleParse (relayout f .code s) = .ok ds := by
  rw [C71_relayout f hf s, h]
  obtain ⟨ls, h1, -⟩ := C36_lexes s ds h
  unfold NoOpenComment
  rw [(outside_lexes h1).2]
  exact ⟨by simp, by simp⟩

/-- The condition is needed: a text that ends inside a comment is not accepted, but it may be without the comment. -/
theorem C71_open : ∃ s ds, weedleParse s = .panic ∧ weedleParse (relayout (fun c => [c]) .code s) = .ok ds :=
  ⟨c!"enum A{\"a\"}; // b", [.enum none c!"A" [c!"a"]], by rfl, by rfl⟩

/-- A text with all kinds of comments, and what it becomes on one line. -/
example : NoOpenComment c!"enum A // a\n{ \"//\" /* b */ };\n" ∧ Blank (fun _ => [' ']) ∧
    relayout (fun _ => [' ']) .code c!"enum A // a\n{ \"//\" /* b */ };\n" = c!"enum A   { \"//\"   }; " := by
  refine ⟨⟨nofun, nofun⟩, fun c _ => ⟨by simp, by simp [blanks]⟩, by rfl⟩

/-- Only where two lexemes would run together is a space needed: the text with no other layout has the same result, and no text
with the same items is shorter. -/
theorem C71_shortest (s : Str) (ls : List Str) (hl : Lexes s ls) (ds : List Definition) (h : weedleParse s = .ok ds) :
    weedleParse (shortest ls) = .ok ds ∧ ∀ s', Lexes s' ls → (shortest ls).length ≤ s'.length := by
  refine ⟨?_, fun s' h' => ?_⟩
  · obtain ⟨l', h1, h2⟩ := C36_lexes s ds h
    obtain rfl := C36_unique _ _ _ hl h1
    rw [document_iff]
    by_cases hd : ds = []
    · subst hd
      obtain rfl : ls = [] := h2
      exact .inl ⟨rfl, rfl⟩
    · obtain ⟨t, b, -, -, hb⟩ := hl
      exact .inr ⟨hd, [], ls, _, rfl, .nil, h2, shortest_text fun w hw => item_ne_nil (items_all hb w hw)⟩
  · obtain ⟨t, b, rfl, -, hb⟩ := h'
    have := shortest_le hb
    simp
    omega

/-- A text, its items and its shortest form. -/
example : Lexes c!"interface A { attribute unsigned long ? b ; } ;"
      [c!"interface", c!"A", c!"{", c!"attribute", c!"unsigned", c!"long", c!"?", c!"b", c!";", c!"}", c!";"] ∧
    (∃ ds, weedleParse c!"interface A { attribute unsigned long ? b ; } ;" = .ok ds) :=
  ⟨lexes_sound (by decide +kernel), _, rfl⟩

example : shortest [c!"interface", c!"A", c!"{", c!"attribute", c!"unsigned", c!"long", c!"?", c!"b", c!";", c!"}", c!";"] =
    c!"interface A{attribute unsigned long?b;};" := by rfl

end Verif.Properties
