import Verif.Proof.VisitsSum
import Verif.Properties.Nesting

/-!
# C65: for bounded nesting no place of the text is looked at more than a fixed number of times

`nest s` (`Verif/Spec/Nesting.lean`) is the largest number of round and angle brackets open at a point of `s`.
`Weighed charLeaf w g s c x` (`Verif/Spec/Visits.lean`): the parser `g`, run on `s`, ends with `x`, and `c` is the sum of `w t`
over the texts `t` on which it tries a terminal; `w = visit m` counts the attempts before the last `m` characters.
The bounds hold for texts that are accepted and for texts that are rejected.
-/

namespace Verif.Properties
open Nom Spec Visits

/-- With the weight one these are the executions of C35 and C63. -/
theorem C65_attempts {α : Type} (g : G α) (s : Str) (c : Nat) (x : Res Char α) :
    Weighed charLeaf (fun _ => 1) g s c x ↔ Runs charLeaf g s c x := weighed_one

/-- In a document whose brackets are nested at most `d` deep, no place is looked at more than `60106 * 553 ^ d` times, however
long the document is. -/
theorem C65_document (d : Nat) (s : Str) (hd : nest s ≤ d) (m n : Nat) (x : Res Char (List Definition))
    (h : Weighed charLeaf (visit m) G.definitions s n x) : n ≤ 60106 * 553 ^ d :=
  document_visits d hd h

/-- There is an execution for each document and each place, so that the bound speaks about something. -/
example (s : Str) (h : s = c!"interface A { void f(long x, (B or C) y); };") (m : Nat) : nest s = 2 ∧
    ∃ n x, Weighed charLeaf (visit m) G.definitions s n x ∧ n ≤ 60106 * 553 ^ 2 := by
  have h0 : nest s = 2 := by rw [h]; rfl
  obtain ⟨_, h⟩ := Runs.parse charLeaf_fine guarded_definitions s
  obtain ⟨n, h⟩ := Weighed.of_runs h (visit m)
  exact ⟨h0, n, _, h, C65_document 2 s (Nat.le_of_eq h0) m n _ h⟩

/-- Whatever an attempt at a place costs, the whole costs at most a constant times what one attempt at each place costs. -/
theorem C65_weighted (d : Nat) (s : Str) (hd : nest s ≤ d) (w : Str → Nat) (c : Nat) (x : Res Char (List Definition))
    (h : Weighed charLeaf w G.definitions s c x) : c ≤ 60106 * 553 ^ d * ((ends s).map w).sum := by
  obtain ⟨_, hp⟩ := Runs.parse charLeaf_fine guarded_definitions s
  obtain ⟨_, h1⟩ := Weighed.of_runs hp w
  obtain rfl := (Verif.Weighed.det h _ _ h1).2
  exact weighed_le (fun m n h => C65_document d s hd m n _ h) w h hp

/-- If the cost of an attempt is the length of what is left, the sum is the sum of the numbers up to the length. -/
example (s : Str) : 2 * ((ends s).map List.length).sum = s.length * (s.length + 1) := by
  induction s with
  | nil => rfl
  | cons c s ih =>
    simp only [ends, List.map_cons, List.sum_cons, List.length_cons]
    rw [Nat.mul_add, ih]
    grind

/-- The number of attempts, with a better factor than in C63. -/
theorem C65_linear (d : Nat) (s : Str) (hd : nest s ≤ d) (c : Nat) (x : Res Char (List Definition))
    (h : Runs charLeaf G.definitions s c x) : c ≤ 60106 * 553 ^ d * (s.length + 1) := by
  have h1 := C65_weighted d s hd (fun _ => 1) c x ((C65_attempts _ _ _ _).2 h)
  have h2 : ∀ s : Str, ((ends s).map fun _ => 1).sum = s.length + 1 := fun s => by
    induction s with
    | nil => rfl
    | cons c s ih =>
      simp only [ends, List.map_cons, List.sum_cons, List.length_cons, ih]
      omega
  rwa [h2] at h1

/-- From a parser bounded relative to the recursive calls. -/
private theorem of_lin {α : Type} {g : G α} {X : List Char} {k : Nat} (hg : Lin List.length 0 g X k) (d : Nat) (s : Str)
    (hd : nest s ≤ d) (m n : Nat) (x : Res Char α) (h : Weighed charLeaf (visit m) g s n x) : n ≤ k * 553 ^ d ∧
    ∀ r v, x = .ok r v → (∀ c ∈ X, ∀ t, strip r ≠ c :: t) → m < r.length → n = 0 := by
  obtain ⟨h1, -, h2⟩ := hg.lin d _ (Nat.pos_of_ne_zero (by simp)) (calls_visits d) m s hd _ _ h
  refine ⟨h1, fun r v e hX => ?_⟩
  exact (h2 r v e).2.resolve_right fun ⟨c, h3, t, h4⟩ => hX c h3 t h4

/-- `Type::parse`. If it accepts, it has not looked at anything behind the place where it ends, except if what is left
begins with `<`. -/
theorem C65_type (d : Nat) (s : Str) (hd : nest s ≤ d) (m n : Nat) (x : Res Char Ty)
    (h : Weighed charLeaf (visit m) G.type s n x) : n ≤ 103 * 553 ^ d ∧
    ∀ r v, x = .ok r v → (∀ t, strip r ≠ '<' :: t) → m < r.length → n = 0 := by
  obtain ⟨h1, h2⟩ := of_lin (X := ['<']) inferInstance d s hd m n x h
  exact ⟨h1, fun r v e h3 => h2 r v e (by simpa using h3)⟩

/-- `Argument::parse`. If it accepts, it has not looked at anything behind the place where it ends, except if what is left
begins with `=`. -/
theorem C65_argument (d : Nat) (s : Str) (hd : nest s ≤ d) (m n : Nat) (x : Res Char Argument)
    (h : Weighed charLeaf (visit m) G.argument s n x) : n ≤ 553 * 553 ^ d ∧
    ∀ r v, x = .ok r v → (∀ t, strip r ≠ '=' :: t) → m < r.length → n = 0 := by
  obtain ⟨h1, h2⟩ := of_lin (X := ['=']) inferInstance d s hd m n x h
  exact ⟨h1, fun r v e h3 => h2 r v e (by simpa using h3)⟩

/-- `ExtendedAttributeList::parse`. If it accepts, it has not looked at anything behind the place where it ends. -/
theorem C65_attributes (d : Nat) (s : Str) (hd : nest s ≤ d) (m n : Nat) (x : Res Char (List ExtAttr))
    (h : Weighed charLeaf (visit m) G.extAttrList s n x) : n ≤ 109 * 553 ^ d ∧
    ∀ r v, x = .ok r v → m < r.length → n = 0 := by
  obtain ⟨h1, h2⟩ := of_lin (X := []) inferInstance d s hd m n x h
  exact ⟨h1, fun r v e => h2 r v e (by simp)⟩

/-- `Definition::parse`. -/
theorem C65_definition (d : Nat) (s : Str) (hd : nest s ≤ d) (m n : Nat) (x : Res Char Definition)
    (h : Weighed charLeaf (visit m) G.definition s n x) : n ≤ 30053 * 553 ^ d :=
  ((inferInstance : Defs G.definition 30053).visits d _ (Nat.pos_of_ne_zero (by simp)) (calls_visits d) m s hd _ _ h).1

/-- **No look ahead.** When a definition is accepted, no terminal has been tried behind the place where it ends: whatever
nesting, and whatever follows. -/
theorem C65_definition_end (s r : Str) (m n : Nat) (v : Definition)
    (h : Weighed charLeaf (visit m) G.definition s n (.ok r v)) (hm : m < r.length) : n = 0 :=
  (((inferInstance : Defs G.definition 30053).visits (nest s) _ (Nat.pos_of_ne_zero (by simp)) (calls_visits _) m s
    (Nat.le_refl _) _ _ h).2 r v rfl).1 hm

/-- A definition with something behind it. -/
example (s : Str) (h : s = c!"typedef sequence<T> x; interface A { void f(long x); };") (m : Nat) (hm : m < 32) :
    ∃ n v, Weighed charLeaf (visit m) G.definition s n (.ok c!"interface A { void f(long x); };" v) ∧ n = 0 := by
  obtain ⟨c, h1⟩ := Runs.parse charLeaf_fine (inferInstance : Guarded true G.definition true) s
  have e : G.definition.parseWith charLeaf s = .ok c!"interface A { void f(long x); };"
      (.typedef none ⟨none, .single (.nonAny (.sequence (.single (.nonAny (.identifier c!"T" false))) false))⟩ c!"x") := by
    rw [h]; rfl
  rw [e] at h1
  obtain ⟨n, h1⟩ := Weighed.of_runs h1 (visit m)
  exact ⟨n, _, h1, C65_definition_end s _ m n _ h1 hm⟩

end Verif.Properties
