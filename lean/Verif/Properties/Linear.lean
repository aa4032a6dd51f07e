import Verif.Proof.LinearDef
import Verif.Properties.Nesting

/-!
# C63: for bounded nesting the work is linear in the length

`nest s` (`Verif/Spec/Nesting.lean`) is the largest number of round and angle brackets open at a point of `s`.
`Runs charLeaf g s c x` (`Verif/Spec/BigStep.lean`): the parser `g`, run on `s`, tries `c` terminals and ends with `x`.
The bounds hold for texts that are accepted and for texts that are rejected.
-/

namespace Verif.Properties
open Nom Spec Linear

/-- A document whose brackets are nested at most `d` deep is parsed with a number of attempts at terminals that is
linear in its length. -/
theorem C63_document (d : Nat) (s : Str) (hd : nest s ≤ d) (c : Nat) (x : Res Char (List Definition))
    (h : Runs charLeaf G.definitions s c x) : c ≤ 342136 * 3752 ^ d * (s.length + 1) :=
  document_lin d hd h

/-- There is an execution for each document, so that the bound speaks about something. -/
example (s : Str) (h : s = c!"interface A { void f(long x, (B or C) y); };") : nest s = 2 ∧
    ∃ c x, Runs charLeaf G.definitions s c x ∧ c ≤ 342136 * 3752 ^ 2 * (s.length + 1) := by
  have h0 : nest s = 2 := by rw [h]; rfl
  obtain ⟨c, h⟩ := Runs.parse charLeaf_fine guarded_definitions s
  exact ⟨h0, c, _, h, C63_document 2 s (Nat.le_of_eq h0) c _ h⟩

/-- Documents without brackets. -/
theorem C63_no_brackets (s : Str) (hs : ∀ c ∈ s, c ∉ ['(', '<']) (c : Nat) (x : Res Char (List Definition))
    (h : Runs charLeaf G.definitions s c x) : c ≤ 342136 * (s.length + 1) := by
  have h0 : nest s = 0 := nesting_zero .code s hs
  simpa using C63_document 0 s (by omega) c x h

example : ∃ c x, Runs charLeaf G.definitions c!"[A, B] enum E { \"x\" };" c x ∧ c ≤ 342136 * 23 := by
  obtain ⟨c, h⟩ := Runs.parse charLeaf_fine guarded_definitions c!"[A, B] enum E { \"x\" };"
  exact ⟨c, _, h, C63_no_brackets _ (by decide) c _ h⟩

/-- From a parser bounded relative to the recursive calls. -/
private theorem of_lin {α : Type} {g : G α} {X : List Char} {k : Nat} (hg : Lin List.length 0 g X k) (d : Nat) (s : Str)
    (hd : nest s ≤ d) (c : Nat) (x : Res Char α) (h : Runs charLeaf g s c x) : c ≤ k * 3752 ^ d * (s.length + 1) :=
  (hg.lin d _ (Nat.pos_of_ne_zero (by simp)) (calls d) s hd _ _ h).total

/-- `Type::parse`. -/
theorem C63_type (d : Nat) (s : Str) (hd : nest s ≤ d) (c : Nat) (x : Res Char Ty) (h : Runs charLeaf G.type s c x) :
    c ≤ 218 * 3752 ^ d * (s.length + 1) := of_lin (X := ['<']) inferInstance d s hd c x h

/-- `Argument::parse`. -/
theorem C63_argument (d : Nat) (s : Str) (hd : nest s ≤ d) (c : Nat) (x : Res Char Argument)
    (h : Runs charLeaf G.argument s c x) : c ≤ 3752 * 3752 ^ d * (s.length + 1) :=
  of_lin (X := []) inferInstance d s hd c x h

/-- `ExtendedAttributeList::parse`. -/
theorem C63_attributes (d : Nat) (s : Str) (hd : nest s ≤ d) (c : Nat) (x : Res Char (List ExtAttr))
    (h : Runs charLeaf G.extAttrList s c x) : c ≤ 758 * 3752 ^ d * (s.length + 1) :=
  of_lin (X := []) inferInstance d s hd c x h

/-- `Definition::parse`: the work done for an accepted definition is linear in the length of the definition, whatever follows. -/
theorem C63_definition (d : Nat) (s r : Str) (hd : nest s ≤ d) (c : Nat) (v : Definition)
    (h : Runs charLeaf G.definition s c (.ok r v)) : c ≤ 171068 * 3752 ^ d * (s.length - r.length + 1) :=
  (((inferInstance : Defs G.definition 171068).cost d _ (Nat.pos_of_ne_zero (by simp)) (calls d) s hd _ _ h).2 r v rfl).1

/-- The text behind the definition is not looked at again and again: the bound is the same for every `s`. -/
example (s : Str) (h : s = c!"typedef sequence<T> x; interface A { void f(long x); };") : nest s = 1 ∧
    ∃ c v, Runs charLeaf G.definition s c (.ok c!"interface A { void f(long x); };" v) ∧ c ≤ 171068 * 3752 * 24 := by
  have h0 : nest s = 1 := by rw [h]; rfl
  obtain ⟨c, h1⟩ := Runs.parse charLeaf_fine (inferInstance : Guarded true G.definition true) s
  have e : G.definition.parseWith charLeaf s = .ok c!"interface A { void f(long x); };"
      (.typedef none ⟨none, .single (.nonAny (.sequence (.single (.nonAny (.identifier c!"T" false))) false))⟩ c!"x") := by
    rw [h]; rfl
  rw [e] at h1
  refine ⟨h0, c, _, h1, Nat.le_trans (C63_definition 1 s _ (Nat.le_of_eq h0) c _ h1) (Nat.le_of_eq ?_)⟩
  rw [h]
  rfl

end Verif.Properties
