import Verif.Proof.Alphabet
import Verif.Proof.Lexer
import Verif.Properties.Rejection

/-!
# C49: the characters of documents

`outside .code s` (`Verif/Spec/Alphabet.lean`): the characters of `s` that are not in comments and not in strings.
`ending .code s`: whether the end of `s` is in a comment or in a string.
-/

namespace Verif.Properties
open Nom Spec

/-- Outside of comments and strings, valid documents consist of characters of the alphabet. -/
theorem C49_alphabet (s : Str) (ds : List Definition) (h : weedleParse s = .ok ds) :
    ∀ c ∈ outside .code s, c ∈ alphabet := by
  obtain ⟨ls, h, -⟩ := C36_lexes s ds h
  exact (outside_lexes h).1

example : ∀ c ∈ outside .code c!"enum B { \"é\" }; // ü\n", c ∈ alphabet := C49_alphabet _ [.enum none c!"B" [c!"é"]] rfl

/-- The comments and strings in valid documents end. -/
theorem C49_closed (s : Str) (ds : List Definition) (h : weedleParse s = .ok ds) : ending .code s = .code := by
  obtain ⟨ls, h, -⟩ := C36_lexes s ds h
  exact (outside_lexes h).2

example : weedleParse c!"[A] enum B { \"é\" }; /* ü */" = .ok [.enum (some [.noArgs c!"A"]) c!"B" [c!"é"]] ∧
    outside .code c!"[A] enum B { \"é\" }; /* ü */" = c!"[A] enum B {  }; " := ⟨by rfl, by rfl⟩

/-- Any other character makes the parser panic, wherever it occurs in code. (`"` and `/` begin strings and
comments.) -/
theorem C49_foreign (a b : Str) (c : Char) (ha : ending .code a = .code) (hc : c ∉ alphabet) (h1 : c ≠ '"')
    (h2 : c ≠ '/') : weedleParse (a ++ c :: b) = .panic :=
  panics fun ds h => hc (C49_alphabet _ ds h c (mem_outside ⟨h1, h2⟩ (fun e => hc (e ▸ by decide)) b .code a ha))

example (s : Str) : weedleParse ('\uFEFF' :: s) = .panic :=
  C49_foreign [] s _ rfl (by decide +kernel) (by decide) (by decide)

example (s : Str) : weedleParse (c!"interface" ++ '\u00A0' :: s) = .panic :=
  C49_foreign _ s _ rfl (by decide +kernel) (by decide) (by decide)

example (s : Str) : weedleParse (c!"interface A { }; // form feed:\n" ++ '\u000C' :: s) = .panic :=
  C49_foreign _ s _ rfl (by decide +kernel) (by decide) (by decide)

/-- A document with all the characters of the alphabet. -/
def alphabetSample : Str :=
  c!"[A=*]\ninterface\tabcdefghijklmnopqrstuvwxyzABCDEFGHIJKLMNOPQRSTUVWXYZ0123456789_ :\rB {\n" ++
  c!"  void f(sequence<long?> x, any... y);\n  const double C = -1.5e+0;\n};"

set_option maxRecDepth 10000 in
/-- The alphabet is exact. -/
theorem C49_exact (c : Char) : c ∈ alphabet ↔ ∃ s ds, weedleParse s = .ok ds ∧ c ∈ outside .code s := by
  constructor
  · intro hc
    obtain ⟨ds, h⟩ : ∃ ds, weedleParse alphabetSample = .ok ds := ⟨_, rfl⟩
    have : ∀ c ∈ alphabet, c ∈ outside .code alphabetSample := by decide +kernel
    exact ⟨_, ds, h, this c hc⟩
  · rintro ⟨s, ds, h, hc⟩
    exact C49_alphabet s ds h c hc

example : '%' ∉ alphabet ∧ '-' ∈ alphabet := by decide +kernel

/-- A text whose end is in a comment or in a string is not a valid document. -/
theorem C49_unclosed (s : Str) (h : ending .code s ≠ .code) : weedleParse s = .panic :=
  panics fun ds h' => h (C49_closed s ds h')

example : weedleParse c!"interface A { }; // no line feed" = .panic :=
  C49_unclosed _ (by have : ending .code c!"interface A { }; // no line feed" = .lineComment := rfl; rw [this]; nofun)

end Verif.Properties
