import Verif.Proof.LongestAll

/-!
# C62: the longest prefix that is a spelling is taken
-/

namespace Verif.Properties
open Nom Spec Longest

variable {α : Type} {g : G α} {L : α → Lang}

/-- What is read is a spelling. -/
theorem C62_prefix (h : PartOf g L ∨ WholeOf g L) {s r : Str} {a : α} (e : g.parse s = .ok r a) : Prefixed L a s r := by
  have hl := longs h
  obtain ⟨ls, h1, h2⟩ := hl.snd s r a e
  obtain ⟨t, h3, h4, -⟩ := skips_strip s
  rcases reads_starts h1 fun w hw => (hl.good h2).lexemes w (List.mem_append_left _ hw) with ⟨-, h'⟩ | h'
  · exact absurd h' (hl.nonempty h2)
  · exact ⟨t, ls, strip s, h3, h4, h2, h'⟩

/-- No longer prefix is a spelling. -/
theorem C62_reaches (h : PartOf g L ∨ WholeOf g L) {s r : Str} {a : α} (hp : Prefixed L a s r) :
    ∃ r' a', g.parse s = .ok r' a' ∧ r'.length ≤ r.length := by
  have hl := longs h
  obtain ⟨t, ls, b, rfl, h1, h2, h3⟩ := hp
  have h4 := prefixed_reads h1 h3 (hl.nonempty h2) fun w hw => (hl.good h2).lexemes w (List.mem_append_left _ hw)
  obtain ⟨r', a', h5, h6⟩ := hl.far h2 h4
  exact ⟨r', a', h5, Nat.le_trans h6 (Verif.Sizes.strip_length r)⟩

/-- Whatever follows: `T::parse` returns `a` and leaves `r` exactly if the text in front of `r` spells `a` and no longer prefix
is a spelling. -/
theorem C62_longest (h : PartOf g L ∨ WholeOf g L) (s r : Str) (a : α) :
    g.parse s = .ok r a ↔ Prefixed L a s r ∧ ∀ a' r', Prefixed L a' s r' → r.length ≤ r'.length := by
  have hl := longs h
  constructor
  · refine fun e => ⟨C62_prefix h e, fun a' r' hp => ?_⟩
    obtain ⟨r1, a1, h1, h2⟩ := C62_reaches h hp
    cases e.symm.trans h1
    exact h2
  · rintro ⟨hp, hm⟩
    obtain ⟨r1, a1, h1, h2⟩ := C62_reaches h hp
    have hp1 := C62_prefix h h1
    have h3 := hm _ _ hp1
    obtain ⟨t, ls, b, e1, ht, hL, hs⟩ := hp
    obtain ⟨t1, ls1, b1, e2, ht1, hL1, hs1⟩ := hp1
    obtain ⟨c, rfl, hc⟩ := starts_text hs (hl.good hL)
    obtain ⟨c1, rfl, hc1⟩ := starts_text hs1 (hl.good hL1)
    have e : (t ++ c) ++ r = (t1 ++ c1) ++ r1 := by simpa using e1.symm.trans e2
    obtain ⟨e3, rfl⟩ := List.append_inj' e (Nat.le_antisymm h3 h2)
    cases C47_unambiguous h rfl ht hL hc e3 ht1 hL1 hc1
    exact h1

/-- `T::parse` fails exactly if no prefix is a spelling. -/
theorem C62_fails (h : PartOf g L ∨ WholeOf g L) (s : Str) : Fails g.parse s ↔ ∀ a r, ¬ Prefixed L a s r := by
  constructor
  · rintro ⟨p, k, e⟩ a r hp
    obtain ⟨r1, a1, h1, -⟩ := C62_reaches h hp
    cases e.symm.trans h1
  · intro hn
    rcases total (longs h).guarded s with ⟨r, a, h1, -⟩ | h1
    · exact absurd (C62_prefix h h1) (hn a r)
    · exact h1

/-- What was read stands on its own: parsed alone, it gives the same result. -/
theorem C62_again (h : PartOf g L ∨ WholeOf g L) (w r : Str) (a : α) (e : g.parse (w ++ r) = .ok r a) : g.parse w = .ok [] a := by
  obtain ⟨t, ls, b, e1, ht, hL, hs⟩ := C62_prefix h e
  obtain ⟨c, rfl, hc⟩ := starts_text hs ((longs h).good hL)
  rw [← List.append_assoc] at e1
  rw [List.append_cancel_right e1]
  exact (C47_text h _ a).2 ⟨t, ls, c, rfl, ht, hL, hc⟩

/-- `12abc` -/
example : G.integerLit.parse c!" 12" = .ok [] (.dec c!"12") := C62_again (.inl .integerLit) c!" 12" c!"abc" _ rfl

/-- A type that is cut short: `sequence` alone is the name of a type. -/
example : Prefixed type (.single (.nonAny (.identifier c!"sequence" false))) c!"sequence < garbage" c!"< garbage" ∧
    ∀ a' r', Prefixed type a' c!"sequence < garbage" r' → (c!"< garbage").length ≤ r'.length :=
  (C62_longest (.inl .type) _ _ _).1 rfl

example : Prefixed integerLit (.dec c!"12") c!" 12abc" c!"abc" := C62_prefix (.inl .integerLit) rfl

/-- The same text has shorter prefixes that are types. -/
example : Prefixed type (.single (.nonAny (.integer (.long true) false))) c!"unsigned long long? x" c!"long? x" ∧
    G.type.parse c!"unsigned long long? x" = .ok c!"x" (.single (.nonAny (.integer (.longLong true) true))) := by
  refine ⟨⟨[], [c!"unsigned", c!"long"], _, rfl, .nil, ?_, ?_⟩, rfl⟩
  · simp only [type, singleType, nonAnyType]
    refine ⟨⟨[c!"unsigned", c!"long"], [], rfl, ⟨_, _, rfl, rfl, rfl⟩, rfl⟩, ?_⟩
    simp
  · have w : Trivia [' '] := .white (by decide) .nil
    refine .cons (w := c!"unsigned") (t := [' ']) (s := c!"long long? x") w
      (.cons (w := c!"long") (t := [' ']) (s := c!"long? x") w .nil (.inr ?_)) (.inr ?_) <;>
    · intro c d h1 h2 _
      cases h2
      rw [nameChar_iff]
      decide

example : ∀ a r, ¬ Prefixed type a c!"(long or" r := (C62_fails (.inl .type) _).1 ⟨_, _, rfl⟩

end Verif.Properties
