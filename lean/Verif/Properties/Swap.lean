import Verif.Properties.Items
import Verif.Proof.AutomatonSwap

/-!
# C73: neighbouring items that have changed places
-/

namespace Verif.Properties
open Nom Spec Auto

private theorem flat_of {x : Str} (h : x ∉ bracketItems) : Flat x := by
  simp only [bracketItems, List.mem_cons, List.not_mem_nil, or_false, not_or] at h
  intro p hp
  simp only [pairs, List.mem_cons, List.not_mem_nil, or_false] at hp
  rcases hp with rfl | rfl | rfl | rfl <;> simp [h]

private theorem mark_swapped {s s' : Str} {a b : List Str} {x k : Str} (hx : x ∉ bracketItems) (hk : k ∈ signs)
    (h : Lexes s (a ++ x :: k :: b)) (h' : Lexes s' (a ++ k :: x :: b)) {ds ds' : List Definition} (hp : weedleParse s = .ok ds)
    (hp' : weedleParse s' = .ok ds') : MaySwap a x k b :=
  swapMark (flat_of hx) hk (by simpa using acc_definitions fr_empty (accepted_lexes hp h))
    (by simpa using acc_definitions fr_empty (accepted_lexes hp' h'))

/-- If a punctuation mark of an accepted text that is not a bracket changes places with the item before it, also not a bracket, the text
is rejected, apart from the places listed in `MaySwap`. -/
theorem C73_mark_back (s s' : Str) (a b : List Str) (x k : Str) (hx : x ∉ bracketItems) (hk : k ∈ signs) (h : Lexes s (a ++ x :: k :: b))
    (h' : Lexes s' (a ++ k :: x :: b)) (hn : ¬ MaySwap a x k b) (ds : List Definition) (hp : weedleParse s = .ok ds) :
    weedleParse s' = .panic :=
  panics fun _ hp' => hn (mark_swapped hx hk h h' hp hp')

/-- If a punctuation mark of an accepted text that is not a bracket changes places with the item after it, also not a bracket, the text
is rejected, apart from the same places. -/
theorem C73_mark_forth (s s' : Str) (a b : List Str) (x k : Str) (hx : x ∉ bracketItems) (hk : k ∈ signs) (h : Lexes s (a ++ k :: x :: b))
    (h' : Lexes s' (a ++ x :: k :: b)) (hn : ¬ MaySwap a x k b) (ds : List Definition) (hp : weedleParse s = .ok ds) :
    weedleParse s' = .panic :=
  panics fun _ hp' => hn (mark_swapped hx hk h' h hp' hp)

/-- If a string or a number of an accepted text changes places with an item beside it that is not a bracket, the text is rejected. -/
theorem C73_literal (s s' : Str) (a b : List Str) (x y : Str) (hx : IsString x ∨ IsNumber x) (hy : y ∉ bracketItems)
    (h : Lexes s (a ++ x :: y :: b) ∧ Lexes s' (a ++ y :: x :: b) ∨ Lexes s (a ++ y :: x :: b) ∧ Lexes s' (a ++ x :: y :: b))
    (ds : List Definition) (hp : weedleParse s = .ok ds) : weedleParse s' = .panic :=
  panics fun _ hp' => by
    rcases h with ⟨h, h'⟩ | ⟨h, h'⟩
    · exact swapLit (a := a) (b := b) hx (flat_of hy) (by simpa using acc_definitions fr_empty (accepted_lexes hp h))
        (by simpa using acc_definitions fr_empty (accepted_lexes hp' h'))
    · exact swapLit (a := a) (b := b) hx (flat_of hy) (by simpa using acc_definitions fr_empty (accepted_lexes hp' h'))
        (by simpa using acc_definitions fr_empty (accepted_lexes hp h))

/-- If a keyword of an accepted text, where it is not also a name, changes places with a word beside it that is not a keyword, and the
text is still accepted, then the keyword is a name in it. -/
theorem C73_keyword (s s' : Str) (a b : List Str) (k x : Str) (hk : k ∈ grammarWords) (hk' : k ∉ typeKeywords) (hx : PlainName x)
    (h : Lexes s (a ++ k :: x :: b) ∧ Lexes s' (a ++ x :: k :: b) ∨ Lexes s (a ++ x :: k :: b) ∧ Lexes s' (a ++ k :: x :: b))
    (ds ds' : List Definition) (hp : weedleParse s = .ok ds) (hp' : weedleParse s' = .ok ds') (hd : k ∉ names ds) : k ∈ names ds' :=
  Classical.byContradiction fun hd' => by
    obtain ⟨w, hm, rfl⟩ := kws_spec hk hk'
    have : NotType w.text := ⟨free_kws w hm⟩
    rcases h with ⟨h, h'⟩ | ⟨h, h'⟩
    · exact swapKw (a := a) (b := b) hm hx (by simpa using acc_definitions (fr_keyword hd) (accepted_lexes hp h))
        (by simpa using acc_definitions (fr_keyword hd') (accepted_lexes hp' h'))
    · exact swapKw (a := a) (b := b) hm hx (by simpa using acc_definitions (fr_keyword hd') (accepted_lexes hp' h'))
        (by simpa using acc_definitions (fr_keyword hd) (accepted_lexes hp h))

/-! ### Cases of the theorems -/

private theorem plain {x : Str} (h : (match x with | c :: _ => c.isAlpha | [] => false) = Bool.true) (h' : x ∉ grammarWords) : PlainName x := by
  cases x with
  | nil => simp at h
  | cons c v => exact ⟨⟨c, v, rfl, .inl h⟩, h'⟩

private theorem eq_stays {a b : List Str} {x : Str} : ¬ MaySwap a x c!"=" b := by
  generalize hk : c!"=" = k
  intro h
  cases h <;> exact absurd hk (by decide)

example : weedleParse c!"dictionary A { long = b 1; };" = .panic :=
  C73_mark_back c!"dictionary A { long b = 1; };" _ [c!"dictionary", c!"A", c!"{", c!"long"] [c!"1", c!";", c!"}", c!";"] c!"b" c!"="
    (by decide) (by decide) (lexes_sound (by decide +kernel)) (lexes_sound (by decide +kernel)) eq_stays _ rfl

example : weedleParse c!"dictionary A { long b true =; };" = .panic :=
  C73_mark_forth c!"dictionary A { long b = true; };" _ [c!"dictionary", c!"A", c!"{", c!"long", c!"b"] [c!";", c!"}", c!";"] c!"true" c!"="
    (by decide) (by decide) (lexes_sound (by decide +kernel)) (lexes_sound (by decide +kernel)) eq_stays _ rfl

example : weedleParse c!"enum A { \"b\" \"c\" , };" = .panic :=
  C73_literal c!"enum A { \"b\", \"c\" };" _ [c!"enum", c!"A", c!"{", c!"\"b\""] [c!"}", c!";"] c!"\"c\"" c!","
    (.inl ⟨_, rfl⟩) (by decide) (.inr ⟨lexes_sound (by decide +kernel), lexes_sound (by decide +kernel)⟩) _ rfl

example (ds' : List Definition) (hp : weedleParse c!"interface A { b getter(); };" = .ok ds') : c!"getter" ∈ names ds' :=
  C73_keyword c!"interface A { getter b(); };" c!"interface A { b getter(); };" [c!"interface", c!"A", c!"{"]
    [c!"(", c!")", c!";", c!"}", c!";"] c!"getter" c!"b" (by decide) (by decide) (plain (by decide) (by decide))
    (.inl ⟨lexes_sound (by decide +kernel), lexes_sound (by decide +kernel)⟩) _ ds' rfl hp (by decide +kernel)

/-- The keyword can become a name. -/
example : ∃ ds ds', weedleParse c!"interface A { getter b(); };" = .ok ds ∧ weedleParse c!"interface A { b getter(); };" = .ok ds' ∧
    c!"getter" ∉ names ds ∧ c!"getter" ∈ names ds' :=
  ⟨_, _, rfl, rfl, by decide +kernel, by decide +kernel⟩

/-- The exceptions are real. -/
example : (∃ ds ds', weedleParse c!"interface A { attribute () a; b(); };" = .ok ds ∧
      weedleParse c!"interface A { attribute (); a b(); };" = .ok ds') ∧
    (∃ ds ds', weedleParse c!"interface A { long long? (); };" = .ok ds ∧ weedleParse c!"interface A { long? long (); };" = .ok ds') ∧
    (∃ ds ds', weedleParse c!"interface A { maplike<long long, long>; };" = .ok ds ∧
      weedleParse c!"interface A { maplike<long, long long>; };" = .ok ds') :=
  ⟨⟨_, _, rfl, rfl⟩, ⟨_, _, rfl, rfl⟩, ⟨_, _, rfl, rfl⟩⟩

end Verif.Properties
