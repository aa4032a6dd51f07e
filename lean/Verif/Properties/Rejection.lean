import Verif.Proof.Enum
import Verif.Properties.Results

/-!
# C26, C30, C37: what is rejected

`Lexes s ls` (`Verif/Spec/Lexing.lean`): the text `s` consists of the lexical items `ls` and trivia.
`p <:+: ls`: the items `p` occur in `ls` one after the other.
-/

namespace Verif.Properties
open Nom Spec

/-- A text is accepted or makes the parser panic. -/
theorem panics {s : Str} (h : ∀ ds, weedleParse s ≠ .ok ds) : weedleParse s = .panic := by
  rcases C02_never_err s with ⟨ds, h'⟩ | h'
  · exact absurd h' (h ds)
  · exact h'

/-! ## C37: which punctuation can follow which -/

/-- The pairs of punctuation marks that can follow each other. -/
def follow : List (Str × Str) :=
  [(c!"(", c!"("), (c!"(", c!")"), (c!"(", c!"["),
   (c!")", c!"("), (c!")", c!")"), (c!")", c!"]"), (c!")", c!","), (c!")", c!";"), (c!")", c!">"),
   (c!")", c!"?"), (c!")", c!"..."),
   (c!"[", c!"]"),
   (c!"]", c!"("), (c!"]", c!")"), (c!"]", c!"["), (c!"]", c!","), (c!"]", c!";"),
   (c!"{", c!"("), (c!"{", c!"["), (c!"{", c!"}"),
   (c!"}", c!")"), (c!"}", c!","), (c!"}", c!";"),
   (c!",", c!"("), (c!",", c!"["), (c!",", c!"}"),
   (c!";", c!"("), (c!";", c!"["), (c!";", c!"}"),
   (c!"<", c!"("), (c!"<", c!"["),
   (c!">", c!"("), (c!">", c!")"), (c!">", c!","), (c!">", c!";"), (c!">", c!">"), (c!">", c!"?"),
   (c!">", c!"..."),
   (c!"=", c!"("), (c!"=", c!"["), (c!"=", c!"{"), (c!"=", c!"*"),
   (c!"?", c!"("), (c!"?", c!")"), (c!"?", c!","), (c!"?", c!">"), (c!"?", c!"..."),
   (c!"*", c!"]"), (c!"*", c!",")]

/-- A document with all of these pairs. -/
def followSample : List Str :=
  [c!"[", c!"A", c!"=", c!"*", c!",", c!"B", c!"(", c!")", c!",", c!"C", c!"(", c!")", c!"]", c!"interface",
   c!"I", c!"{", c!"a", c!"(", c!"(", c!"A", c!"or", c!"(", c!"B", c!"or", c!"C", c!")", c!")", c!"?", c!"x",
   c!")", c!";", c!"[", c!"X", c!"]", c!"(", c!"A", c!"or", c!"B", c!")", c!"b", c!"(", c!"[", c!"X", c!"]",
   c!"[", c!"Y", c!"]", c!"any", c!"x", c!",", c!"(", c!"A", c!"or", c!"B", c!")", c!"...", c!"y", c!")", c!";",
   c!"(", c!"A", c!"or", c!"sequence", c!"<", c!"any", c!">", c!")", c!"c", c!"(", c!"optional", c!"any", c!"x",
   c!"=", c!"[", c!"]", c!",", c!"[", c!"X", c!"]", c!"any", c!"y", c!",", c!"optional", c!"any", c!"z", c!"=",
   c!"{", c!"}", c!",", c!"(", c!"A", c!"or", c!"B", c!"?", c!")", c!"t", c!",", c!"optional", c!"any", c!"u",
   c!"=", c!"{", c!"}", c!")", c!";", c!"sequence", c!"<", c!"(", c!"A", c!"or", c!"B", c!")", c!">", c!"(",
   c!"sequence", c!"<", c!"any", c!">", c!"...", c!"x", c!")", c!";", c!"long", c!"?", c!"(", c!"optional",
   c!"any", c!"x", c!"=", c!"[", c!"]", c!")", c!";", c!"record", c!"<", c!"sequence", c!"<", c!"any", c!">",
   c!",", c!"sequence", c!"<", c!"sequence", c!"<", c!"long", c!"?", c!">", c!">", c!"?", c!">", c!"d", c!"(",
   c!"long", c!"?", c!"...", c!"x", c!")", c!";", c!"record", c!"<", c!"long", c!"?", c!",", c!"any", c!">",
   c!"e", c!"(", c!")", c!";", c!"iterable", c!"<", c!"[", c!"X", c!"]", c!"any", c!">", c!";", c!"}", c!";",
   c!"[", c!"C", c!"=", c!"*", c!"]", c!"interface", c!"J", c!"{", c!"(", c!"A", c!"or", c!"B", c!")", c!"x",
   c!"(", c!")", c!";", c!"}", c!";", c!"[", c!"]", c!"interface", c!"K", c!"{", c!"[", c!"X", c!"]", c!"any",
   c!"x", c!"(", c!")", c!";", c!"}", c!";", c!"interface", c!"L", c!"{", c!"}", c!";", c!"dictionary", c!"D",
   c!"{", c!"any", c!"x", c!"=", c!"[", c!"]", c!";", c!"}", c!";", c!"enum", c!"E", c!"{", c!"\"a\"", c!",",
   c!"}", c!";", c!"callback", c!"F", c!"=", c!"(", c!"A", c!"or", c!"B", c!")", c!"(", c!")", c!";"]

theorem follow_complete : ∀ x ∈ punctuation, ∀ y ∈ punctuation, (x, y) ∉ follow →
    forbidden (could x) (could y) = true := by decide +kernel

/-- A text in which two punctuation marks follow each other that are not in the table `follow`
is rejected. Doubled, leading and trailing separators are examples. -/
theorem C37_rejected (s : Str) (ls : List Str) (h : Lexes s ls) (x y : Str) (hx : x ∈ punctuation)
    (hy : y ∈ punctuation) (hi : [x, y] <:+: ls) (hf : (x, y) ∉ follow) : weedleParse s = .panic :=
  panics (never_pair (follow_complete x hx y hy hf) h hi)

example : weedleParse c!"[A,] typedef B c;" = .panic :=
  C37_rejected _ [c!"[", c!"A", c!",", c!"]", c!"typedef", c!"B", c!"c", c!";"] (lexes_sound (by decide +kernel)) c!"," c!"]"
    (by decide) (by decide) ⟨[c!"[", c!"A"], _, rfl⟩ (by decide)

set_option maxRecDepth 10000 in
/-- The table is exact: the pairs in it are those that occur in valid documents. -/
theorem C37_follow (x y : Str) (hx : x ∈ punctuation) (hy : y ∈ punctuation) :
    (x, y) ∈ follow ↔ ∃ s ls ds, weedleParse s = .ok ds ∧ Lexes s ls ∧ [x, y] <:+: ls := by
  constructor
  · intro h
    obtain ⟨ds, h'⟩ : ∃ ds, weedleParse (spaced followSample) = .ok ds := ⟨_, rfl⟩
    refine ⟨_, followSample, ds, h', lexes_sound (by decide +kernel), ?_⟩
    have : ∀ p ∈ follow, [p.1, p.2] <:+: followSample := by decide +kernel
    exact this _ h
  · rintro ⟨s, ls, ds, h1, h2, h3⟩
    apply Decidable.byContradiction
    intro h4
    have := C37_rejected s ls h2 x y hx hy h3 h4
    rw [h1] at this
    cases this

example : ∃ s ls ds, weedleParse s = .ok ds ∧ Lexes s ls ∧ [c!">", c!"?"] <:+: ls := (C37_follow _ _ (by decide) (by decide)).1 (by decide)

/-- Separators that are doubled, or have nothing before or after them. -/
theorem C37_separators (s : Str) (ls : List Str) (h : Lexes s ls) (p : List Str)
    (hp : p ∈ [[c!",", c!","], [c!";", c!";"], [c!"(", c!","], [c!"[", c!","], [c!"{", c!","], [c!"<", c!","],
      [c!",", c!")"], [c!",", c!"]"], [c!",", c!">"], [c!"{", c!";"], [c!",", c!";"], [c!";", c!","]])
    (hi : p <:+: ls) : weedleParse s = .panic := by
  simp only [List.mem_cons, List.not_mem_nil, or_false] at hp
  rcases hp with rfl | rfl | rfl | rfl | rfl | rfl | rfl | rfl | rfl | rfl | rfl | rfl <;>
    exact C37_rejected s ls h _ _ (by decide) (by decide) hi (by decide)

example : weedleParse c!"interface A { void f(long a,, long b); };" = .panic :=
  C37_separators _ [c!"interface", c!"A", c!"{", c!"void", c!"f", c!"(", c!"long", c!"a", c!",", c!",", c!"long", c!"b",
    c!")", c!";", c!"}", c!";"] (lexes_sound (by decide +kernel)) [c!",", c!","] (by decide)
    ⟨[c!"interface", c!"A", c!"{", c!"void", c!"f", c!"(", c!"long", c!"a"], _, rfl⟩

example : weedleParse c!"interface A { };; // two" = .panic := by rfl

/-! ## C30: valid WebIDL that is rejected -/

/-- `required` with an attributed type, `required [A] T x`, is rejected. -/
theorem C30_required (s : Str) (ls : List Str) (h : Lexes s ls) (hi : [c!"required", c!"["] <:+: ls) :
    weedleParse s = .panic :=
  panics (never_pair (by decide +kernel) h hi)

example : weedleParse c!"dictionary D { required [Clamp] long x; };" = .panic :=
  C30_required _ [c!"dictionary", c!"D", c!"{", c!"required", c!"[", c!"Clamp", c!"]", c!"long", c!"x", c!";", c!"}", c!";"]
    (lexes_sound (by decide +kernel)) ⟨[c!"dictionary", c!"D", c!"{"], _, rfl⟩

/-- A tag of the item at each place of a window. -/
theorem window3 {ts : List Tag} {ls : List Str} (h : Tagged ts ls) {x y z : Str} (hi : [x, y, z] <:+: ls) :
    ∃ n t u v, ts[n]? = some t ∧ ts[n + 1]? = some u ∧ ts[n + 2]? = some v ∧ t.has x ∧ u.has y ∧ v.has z := by
  obtain ⟨a, b, rfl⟩ := hi
  obtain ⟨t, h1, h2⟩ := h.at a.length x (by simp)
  obtain ⟨u, h3, h4⟩ := h.at (a.length + 1) y (by simp)
  obtain ⟨v, h5, h6⟩ := h.at (a.length + 2) z (by simp)
  exact ⟨_, t, u, v, h1, h3, h5, h2, h4, h6⟩

/-- An attributed type as the parameter of `sequence`, `FrozenArray`, `Promise` or the key of a
`record`, such as `sequence<[A] T>`, is rejected. -/
theorem C30_generic (s : Str) (ls : List Str) (h : Lexes s ls) (w : Str)
    (hw : w ∈ [c!"sequence", c!"FrozenArray", c!"Promise", c!"record"]) (hi : [w, c!"<", c!"["] <:+: ls) :
    weedleParse s = .panic := by
  refine panics fun ds hs => ?_
  obtain ⟨ts, h1, h2⟩ := document_tags hs h
  obtain ⟨n, t, u, v, ht, hu, hv, h3, h4, h5⟩ := window3 h2 hi
  by_cases hu' : u = .w c!"<" 0
  · subst hu'
    exact forbidden_sound (e := E.document) (P := (· == .w c!"<" 0)) (Q := could c!"[") (by decide +kernel) h1 _ _ _ hu hv
      (by decide) (has_could h5)
  · have key : ∀ w ∈ [c!"sequence", c!"FrozenArray", c!"Promise", c!"record"],
        forbidden (could w) (fun t => could c!"<" t && t != .w c!"<" 0) = true := by decide +kernel
    refine forbidden_sound (key w hw) h1 _ _ _ ht hu (has_could h3) ?_
    simp only [has_could h4, Bool.true_and, bne_iff_ne, ne_eq]
    exact hu'

example : weedleParse c!"dictionary D { required [Clamp] long x; };" = .panic :=
  C30_required _ [c!"dictionary", c!"D", c!"{", c!"required", c!"[", c!"Clamp", c!"]", c!"long", c!"x", c!";", c!"}", c!";"]
    (lexes_sound (by decide +kernel)) ⟨[c!"dictionary", c!"D", c!"{"], _, rfl⟩

example : weedleParse c!"typedef sequence<[Clamp] long> x;" = .panic :=
  C30_generic _ [c!"typedef", c!"sequence", c!"<", c!"[", c!"Clamp", c!"]", c!"long", c!">", c!"x", c!";"]
    (lexes_sound (by decide +kernel)) c!"sequence" (by decide) ⟨[c!"typedef"], _, rfl⟩

/-- The attributes are what is rejected. -/
example : ∃ ds, weedleParse c!"dictionary D { required sequence<long> x; [Clamp] required long y; };" = .ok ds := ⟨_, rfl⟩

/-! ## C26: enums -/

/-- Every enum has a value. -/
theorem C26_nonempty (s : Str) (ds : List Definition) (h : weedleParse s = .ok ds) (as : Attrs) (i : Str)
    (vs : List Str) (hd : .enum as i vs ∈ ds) : vs ≠ [] :=
  ((C21_wellformed ds).2 ⟨s, h⟩ _ hd).2

example (ds : List Definition) (h : weedleParse c!"enum A { \"b\", \"c\", };" = .ok ds) : ds = [.enum none c!"A" [c!"b", c!"c"]] :=
  ((Outcome.ok.injEq ..).mp ((show weedleParse c!"enum A { \"b\", \"c\", };" = .ok [.enum none c!"A" [c!"b", c!"c"]] from rfl).symm.trans h)).symm

/-- A text with an enum without values is rejected. -/
theorem C26_empty (s : Str) (ls : List Str) (h : Lexes s ls) (n : Str) (hn : Regex.identifier.Matches n)
    (hi : [c!"enum", n, c!"{", c!"}"] <:+: ls) : weedleParse s = .panic := by
  refine panics fun ds hs => ?_
  obtain ⟨ts, h1, h2⟩ := document_tags hs h
  obtain ⟨a, b, rfl⟩ := hi
  obtain ⟨t0, ht0, hw0⟩ := h2.at a.length c!"enum" (by simp)
  obtain ⟨t1, ht1, hw1⟩ := h2.at (a.length + 1) n (by simp)
  obtain ⟨t2, ht2, hw2⟩ := h2.at (a.length + 2) c!"{" (by simp)
  obtain ⟨t3, ht3, hw3⟩ := h2.at (a.length + 3) c!"}" (by simp)
  have c0 := has_could hw0
  have c2 := has_could hw2
  have c3 := has_could hw3
  by_cases e2 : t2 = .w c!"{" 1
  · exact forbidden_sound (e := E.document) (P := (· == .w c!"{" 1)) (Q := could c!"}") (by decide +kernel) h1 _ _ _ ht2 ht3
      (by simp [e2]) c3
  by_cases e1 : t1 = .w c!"=" 0
  · subst e1
    obtain rfl : n = c!"=" := hw1
    obtain ⟨i, h3, h4⟩ := identifier_name.1 hn
    obtain ⟨c, v, rfl, h5, -⟩ := word_iff.1 h3
    simp at h4
    obtain ⟨rfl, -⟩ := h4
    revert h5
    decide
  by_cases e1' : t1 = .name 2 ∨ t1 = .name 4
  · refine forbidden_sound (e := E.document) (P := could c!"enum") (Q := fun t => t == .name 2 || t == .name 4)
      (by decide +kernel) h1 _ _ _ ht0 ht1 c0 ?_
    rcases e1' with rfl | rfl <;> decide
  · refine forbidden_sound (e := E.document) (P := fun t => t != .name 2 && t != .name 4 && t != .w c!"=" 0)
      (Q := fun t => could c!"{" t && t != .w c!"{" 1) (by decide +kernel) h1 _ _ _ ht1 ht2 ?_ ?_
    · simp_all
    · simp_all

example : weedleParse c!"enum E { };" = .panic :=
  C26_empty _ [c!"enum", c!"E", c!"{", c!"}", c!";"] (lexes_sound (by decide +kernel)) c!"E"
    (identifier_name.2 ⟨c!"E", word_iff.2 ⟨'E', [], rfl, by decide, by simp⟩, .inl rfl⟩) ⟨[], _, rfl⟩

/-- A comma between a string literal and a closing brace, that is, at the end of an enum, makes no difference. -/
theorem C26_trailing_comma (s s' : Str) (a b : List Str) (v : Str) (hv : Regex.string.Matches v)
    (h : Lexes s (a ++ [v, c!"}"] ++ b)) (h' : Lexes s' (a ++ [v, c!",", c!"}"] ++ b)) :
    weedleParse s = weedleParse s' := by
  obtain ⟨v, -, hv⟩ := string_item.1 hv
  simp at hv
  subst hv
  have key : ∀ ds, weedleParse s = .ok ds ↔ weedleParse s' = .ok ds := by
    intro ds
    rw [document_iff, document_iff, document_lexes, document_lexes]
    have ne : ∀ {s : Str} {l : List Str} {x : Str}, Lexes s l → x ∈ l → s ≠ [] := by
      rintro s l x h1 h2 rfl
      obtain rfl := lexes_unique h1 lexes_nil
      cases h2
    have e1 := ne h (x := c!"}") (by simp)
    have e2 := ne h' (x := c!"}") (by simp)
    simp only [e1, e2, and_false, false_or]
    refine and_congr_right fun _ => ⟨?_, ?_⟩
    · rintro ⟨ls, h1, h2⟩
      obtain rfl := lexes_unique h h1
      refine ⟨_, h', ?_⟩
      simp only [List.append_assoc, List.cons_append, List.nil_append] at h2 ⊢
      exact definitions_comma.1 h2
    · rintro ⟨ls, h1, h2⟩
      obtain rfl := lexes_unique h' h1
      refine ⟨_, h, ?_⟩
      simp only [List.append_assoc, List.cons_append, List.nil_append] at h2 ⊢
      exact definitions_comma.2 h2
  rcases C02_never_err s with ⟨ds, h1⟩ | h1
  · rw [h1, (key ds).1 h1]
  · rcases C02_never_err s' with ⟨ds, h2⟩ | h2
    · rw [h2, (key ds).2 h2]
    · rw [h1, h2]

example : weedleParse c!"enum E {\"a\", \"b\"};" = weedleParse c!"enum E { \"a\", \"b\",\n};" ∧
    weedleParse c!"enum E {\"a\", \"b\"};" = .ok [.enum none c!"E" [c!"a", c!"b"]] :=
  ⟨C26_trailing_comma _ _ [c!"enum", c!"E", c!"{", c!"\"a\"", c!","] [c!";"] c!"\"b\""
    (string_item.2 ⟨c!"b", by decide, rfl⟩) (lexes_sound (by decide +kernel)) (lexes_sound (by decide +kernel)), rfl⟩

/-- A second trailing comma is rejected: the symbols `,` `,` `}` occur in no text that is accepted. -/
theorem C26_two_commas (s : Str) (ls : List Str) (h : Lexes s ls) (hi : [c!",", c!",", c!"}"] <:+: ls) :
    weedleParse s = .panic := by
  obtain ⟨a, b, rfl⟩ := hi
  exact C37_separators s _ h [c!",", c!","] (by decide) ⟨a, c!"}" :: b, by simp⟩

example : weedleParse c!"enum E { \"a\", \"b\",, };" = .panic :=
  C26_two_commas _ [c!"enum", c!"E", c!"{", c!"\"a\"", c!",", c!"\"b\"", c!",", c!",", c!"}", c!";"]
    (lexes_sound (by decide +kernel)) ⟨[c!"enum", c!"E", c!"{", c!"\"a\"", c!",", c!"\"b\""], _, rfl⟩

end Verif.Properties
