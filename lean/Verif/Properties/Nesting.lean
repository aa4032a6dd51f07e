import Verif.Proof.Tame
import Verif.Properties.Cost

/-!
# C42, C43: nesting of brackets bounds recursion and cost

`nest s` (`Verif/Spec/Nesting.lean`) is the largest number of round and angle brackets open at a point of `s`.
`ntRun charLeaf d` are the recursive parsers on a stack with room for `d` nested recursive calls (calls of
`Type`, `NonAnyType`, `UnionMemberType` or `Argument` from within one another): one more call gives `diverge`.
-/

namespace Verif.Properties
open Nom Spec

/-- A stack with room for as many recursive calls as brackets are nested in the document is enough: the parser
behaves as on an unlimited stack. -/
theorem C42_document (s : Str) (d : Nat) (h : nest s ≤ d) :
    G.definitions.run charLeaf (ntRun charLeaf d) s = G.definitions.parse s :=
  (inferInstance : Tame 0 G.definitions 0 _ 4).agree (ntLim_nest fun α N => ⟨0, _, _, tame_body α N⟩)
    (fun α N s h => ntRun_agree (fun α N => ⟨_, _, tame_body α N⟩) d α N s h) s h

/-- Two brackets are nested here, and a stack with room for two calls suffices; with room for one it overflows. -/
example : nest c!"typedef sequence<(A or B)> x; // ((" = 2 ∧
    (∃ ds, G.definitions.run charLeaf (ntRun charLeaf 2) c!"typedef sequence<(A or B)> x; // ((" = .ok c!"// ((" ds) ∧
    G.definitions.run charLeaf (ntRun charLeaf 1) c!"typedef sequence<(A or B)> x; // ((" = .diverge :=
  ⟨rfl, ⟨_, rfl⟩, rfl⟩

/-- In particular the parser does not run out of stack. -/
theorem C42_enough (s : Str) (d : Nat) (h : nest s ≤ d) :
    G.definitions.run charLeaf (ntRun charLeaf d) s ≠ .diverge := by
  rw [C42_document s d h]
  intro e
  have := parseWith_fine charLeaf_fine guarded_definitions s
  rw [show G.definitions.parseWith charLeaf s = _ from e] at this
  exact this

/-- Without brackets there is no recursion at all, also when the text is rejected. -/
example : nest c!"interface A { attribute long x" = 0 ∧
    G.definitions.run charLeaf (ntRun charLeaf 0) c!"interface A { attribute long x" ≠ .diverge :=
  ⟨rfl, C42_enough _ 0 (Nat.le_of_eq rfl)⟩

/-- The same for a type, where one level of recursion is the parser of the type itself. -/
theorem C42_type (s : Str) (d : Nat) (h : nest s ≤ d) :
    G.type.run charLeaf (ntRun charLeaf d) s = G.type.parse s :=
  (inferInstance : Tame 0 G.type 0 _ 2).agree (ntLim_nest fun α N => ⟨0, _, _, tame_body α N⟩)
    (fun α N s h => ntRun_agree (fun α N => ⟨_, _, tame_body α N⟩) d α N s h) s h

example : nest c!"record<DOMString, sequence<T>>" = 2 ∧
    G.type.run charLeaf (ntRun charLeaf 2) c!"record<DOMString, sequence<T>>" =
      .ok [] (.single (.nonAny (.record .dom
        (.single (.nonAny (.sequence (.single (.nonAny (.identifier c!"T" false))) false))) false))) := ⟨rfl, rfl⟩

/-- Nothing less is enough in general: for each `n` there is an accepted document with nesting `n + 1` for which a stack
with room for `n` recursive calls overflows. -/
theorem C42_needed (n : Nat) : nest (nestedDoc n) = n + 1 ∧ (∃ d, weedleParse (nestedDoc n) = .ok [d]) ∧
    G.definitions.run charLeaf (ntRun charLeaf n) (nestedDoc n) = .diverge :=
  ⟨nest_nestedDoc n, (C35_exponential n).2.1, nestedDoc_diverge n⟩

/-- The documents grow slowly. -/
example : nestedDoc 1 = c!"[A([A(T...x)]T...x)]typedef T x;" ∧ nest (nestedDoc 1) = 2 := ⟨rfl, rfl⟩

/-- For documents of bounded nesting the number of terminals tried is polynomial in the length. -/
theorem C43_document (d : Nat) (s : Str) (hd : nest s ≤ d) (c : Nat) (x : Res Char (List Definition))
    (h : Runs charLeaf G.definitions s c x) : c ≤ 7514 * 287 ^ d * (s.length + 1) ^ (2 * d + 4) := by
  have := (inferInstance : Tame 0 G.definitions 0 _ 4).cost (fun α N => ⟨_, _, tame_body α N⟩)
    (Nat.pow_pos (Nat.mul_pos (by decide) (Nat.pow_pos (by omega)))) (cheapNest (by decide) tame_body s.length d) s
    (by omega) (Nat.le_refl _) c x h
  refine Nat.le_trans this (Nat.le_of_eq ?_)
  rw [Nat.mul_pow, ← Nat.pow_mul, Nat.pow_add]
  ac_rfl

/-- There is an execution for each document, so that the bound speaks about something. -/
example (s : Str) (h : s = c!"interface A { void f(long x, (B or C) y); };") : nest s = 2 ∧
    ∃ c x, Runs charLeaf G.definitions s c x ∧ c ≤ 7514 * 287 ^ 2 * (s.length + 1) ^ 8 := by
  have h0 : nest s = 2 := by rw [h]; rfl
  obtain ⟨c, h⟩ := Runs.parse charLeaf_fine guarded_definitions s
  exact ⟨h0, c, _, h, C43_document 2 s (Nat.le_of_eq h0) c _ h⟩

/-- In particular there is no backtracking problem without brackets. -/
theorem C43_no_brackets (s : Str) (hs : ∀ c ∈ s, c ∉ ['(', '<']) (c : Nat) (x : Res Char (List Definition))
    (h : Runs charLeaf G.definitions s c x) : c ≤ 7514 * (s.length + 1) ^ 4 := by
  have h0 : nest s = 0 := nesting_zero .code s hs
  simpa using C43_document 0 s (by omega) c x h

example : ∃ c x, Runs charLeaf G.definitions c!"[A, B] enum E { \"x\" };" c x ∧ c ≤ 7514 * 23 ^ 4 := by
  obtain ⟨c, h⟩ := Runs.parse charLeaf_fine guarded_definitions c!"[A, B] enum E { \"x\" };"
  exact ⟨c, _, h, C43_no_brackets _ (by decide) c _ h⟩

end Verif.Properties
