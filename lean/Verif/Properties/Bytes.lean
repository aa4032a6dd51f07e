import Verif.Proof.ByteLeaf
import Verif.Proof.Definitions

/-!
# C46: strings are cut between characters only

`Verif/Model/Bytes.lean` models the terminals on the bytes of the input, where a cut inside of a character
is a call that does not return.
-/

namespace Verif.Properties
open Nom Spec

/-- `utf8` is the content of Lean's own strings. -/
theorem utf8_string (s : String) : s.toUTF8.data.toList = utf8 s.toList := by
  have h : s.toUTF8 = s.toList.utf8Encode := by
    rw [← String.toByteArray_ofList, String.ofList_toList]; rfl
  rw [h, List.utf8Encode]
  simp [utf8]

/-- On the bytes of a text every parser returns what the model on characters returns: the same tree,
the remainder and the position of errors at the same place. -/
theorem C46_same {α : Type} (g : G α) (s : Str) : g.parseBytes (utf8 s) = resUtf8 (g.parse s) := by
  rw [← mapUtf8_id]
  exact (agree_parse g s).1

example : G.ident.parseBytes (utf8 c!" aé") = resUtf8 (.ok c!"é" c!"a") := C46_same _ _

/-- No string is cut inside of a character (and the recursion ends). -/
theorem C46_returns {α : Type} {g : G α} {b : Bool} (h : IsType g b) (s : Str) : g.parseBytes (utf8 s) ≠ .diverge := by
  rw [C46_same]
  have := h.fine s
  cases hr : g.parse s with
  | ok r a => simp [resUtf8]
  | err e => simp [resUtf8]
  | diverge => rw [hr] at this; exact absurd this id

example (s : Str) : G.definition.parseBytes (utf8 s) ≠ .diverge := C46_returns .definition s

/-- The remainder is UTF-8 and begins between two characters. -/
theorem C46_remainder {α : Type} (g : G α) (s : Str) (r : Bytes) (a : α) (h : g.parseBytes (utf8 s) = .ok r a) :
    ∃ s1 s2, s = s1 ++ s2 ∧ r = utf8 s2 ∧ utf8 s = utf8 s1 ++ r := by
  rw [C46_same] at h
  cases hr : g.parse s with
  | ok s2 a' =>
    rw [hr] at h
    cases h
    obtain ⟨s1, rfl⟩ := (agree_parse g s).2 s2 a hr
    exact ⟨s1, s2, rfl, rfl, utf8_append s1 s2⟩
  | err e => rw [hr] at h; cases h
  | diverge => rw [hr] at h; cases h

example : ∃ s1 s2, c!"a é" = s1 ++ s2 ∧ utf8 c!"é" = utf8 s2 ∧ utf8 c!"a é" = utf8 s1 ++ utf8 c!"é" :=
  C46_remainder G.ident _ _ c!"a" rfl

/-- So does the position of an error. -/
theorem C46_position {α : Type} {g : G α} {b : Bool} (hg : IsType g b) (s : Str) (e : Err UInt8)
    (h : g.parseBytes (utf8 s) = .err e) : ∃ s1 s2 k, s = s1 ++ s2 ∧ e = .error (utf8 s2) k := by
  rw [C46_same] at h
  have hf := hg.fine s
  cases hr : g.parse s with
  | ok s2 a => rw [hr] at h; cases h
  | err e' =>
    rw [hr] at h hf
    cases h
    cases e' with
    | error p k =>
      obtain ⟨s1, rfl⟩ : p <:+ s := hf
      exact ⟨s1, p, k, rfl, rfl⟩
    | incomplete => exact absurd hf id
    | failure p k => exact absurd hf id
  | diverge => rw [hr] at h; cases h

example : ∃ s1 s2 k, c!" é" = s1 ++ s2 ∧ Err.error (utf8 c!"é") ErrorKind.takeWhile1 = .error (utf8 s2) k :=
  C46_position .ident _ _ rfl

/-- `weedle::parse` on bytes accepts what it accepts on characters, with the same result, … -/
theorem C46_document (s : Str) (ds : List Definition) : weedleParseBytes (utf8 s) = .ok ds ↔ weedleParse s = .ok ds := by
  unfold weedleParseBytes weedleParse
  rw [C46_same]
  cases hr : G.definitions.parse s with
  | ok r a =>
    have : (utf8 r).isEmpty = r.isEmpty := by
      have := utf8_length_zero (s := r)
      rw [List.length_eq_zero_iff] at this
      rw [Bool.eq_iff_iff]; simp [this]
    simp only [resUtf8, this]
    cases r.isEmpty <;> simp
  | err e => simp [resUtf8]
  | diverge => simp [resUtf8]

example : weedleParseBytes (utf8 c!"enum é { \"a\" };") ≠ .ok [.enum none c!"é" [c!"a"]] :=
  fun h => nomatch (C46_document _ _).1 h

/-- … and if it does not accept, then the assertion on the remainder fails. -/
theorem C46_otherwise (s : Str) : (∃ ds, weedleParseBytes (utf8 s) = .ok ds) ∨ weedleParseBytes (utf8 s) = .panic := by
  obtain ⟨r, ds, h⟩ := definitions_ok s
  unfold weedleParseBytes
  rw [C46_same, h]
  simp only [resUtf8]
  split
  · exact .inl ⟨_, rfl⟩
  · exact .inr rfl

/-- Cuts inside of a character do not return in this model. -/
example : Byte.takeSplit 1 (utf8 c!"é;") = .diverge := by rfl
example : Byte.takeSplit 2 (utf8 c!"é;") = .ok (utf8 c!";") (utf8 c!"é") := by rfl

/-- Characters of two, three and four bytes, in strings, in comments and where they are not allowed. -/
example : utf8 c!"é" = [0xC3, 0xA9] ∧ utf8 c!"€" = [0xE2, 0x82, 0xAC] ∧ utf8 c!"😀" = [0xF0, 0x9F, 0x98, 0x80] := by
  decide

set_option maxRecDepth 10000 in
example : weedleParseBytes (utf8 c!"/* é */ enum E { \"€😀\" }; // 😀\n") = .ok [.«enum» none c!"E" [c!"€😀"]] := by rfl

example : G.ident.parseBytes (utf8 c!"aé") = .ok (utf8 c!"é") c!"a" := by rfl
example : (G.kw .long).parseBytes (utf8 c!"longé") = .ok (utf8 c!"é") () := by rfl
example : weedleParseBytes (utf8 c!"typedef long é;") = .panic := by rfl

end Verif.Properties
