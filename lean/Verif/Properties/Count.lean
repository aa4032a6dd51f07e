import Verif.Proof.CountSum
import Verif.Proof.CountParseLocal
import Verif.Properties.Visits
import Verif.Properties.Cost

/-!
# C67: for bounded nesting the characters looked at are linear in the length

`Count.leaf` (`Verif/Model/Count.lean`) is a terminal with a counter: it returns how often it has looked at a character of the
input, and its result. `Traced charLeaf g s L x` (`Verif/Spec/Trace.lean`): the parser `g`, run on `s`, ends with `x`, and `L`
lists the terminals it has tried with the texts on which it has tried them. `Count.parse g` (`Verif/Model/CountParse.lean`) is the
whole parser `g` with a counter. `Guarded true g _` holds of all the parsers of the crate. `nest s` (`Verif/Spec/Nesting.lean`) is the largest
number of round and angle brackets open at a point of `s`.
-/

namespace Verif.Properties
open Nom Spec

variable {α : Type}

/-- The terminals that count are the terminals of the parser. -/
theorem C67_same (l : Leaf α) (s : Str) : (Count.leaf α l s).2 = charLeaf α l s := Count.same_leaf l s

/-- What is not counted has no influence: if two texts agree in as many characters as are counted (or are both shorter, and
equal), a terminal does the same with both, counts the same, and what it reads is the same piece of both, and not longer than
what is counted. -/
theorem C67_local (l : Leaf α) (s t : Str) (h : t.take (Count.leaf α l s).1 = s.take (Count.leaf α l s).1) :
    (Count.leaf α l t).1 = (Count.leaf α l s).1 ∧
    (∀ r v, charLeaf α l s = .ok r v →
      ∃ w r', s = w ++ r ∧ t = w ++ r' ∧ w.length ≤ (Count.leaf α l s).1 ∧ charLeaf α l t = .ok r' v) ∧
    (∀ p k, charLeaf α l s = .err (.error p k) → ∃ p', charLeaf α l t = .err (.error p' k)) := by
  obtain ⟨h1, h2⟩ := Count.Local.leaf l s t h
  rw [Count.same_leaf, Count.same_leaf] at h2
  refine ⟨h1, fun r v e => ?_, fun p k e => ?_⟩
  · rw [e] at h2
    rcases h2.cases with ⟨_, r', _, w, h3, h4, h5, h6, h7⟩ | ⟨_, _, _, h3, -⟩ | ⟨_, _, _, h3, -⟩ | ⟨h3, -⟩ | ⟨h3, -⟩
    · cases h3; exact ⟨w, r', h5, h6, h7, h4⟩
    all_goals cases h3
  · rw [e] at h2
    rcases h2.cases with ⟨_, r', _, w, h3, -⟩ | ⟨_, p', _, h3, h4⟩ | ⟨_, _, _, h3, -⟩ | ⟨h3, -⟩ | ⟨h3, -⟩
    · cases h3
    · cases h3; exact ⟨p', h4⟩
    all_goals cases h3

/-- The keyword `interface` needs 19 looks here: whatever follows the first 19 characters, it is read. -/
example (t : Str) : (Count.leaf _ (.kw .interface) (c!"interface Another {" ++ t)).1 = 19 ∧
    charLeaf _ (.kw .interface) (c!"interface Another {" ++ t) = .ok (c!"Another {" ++ t) () := by
  have h : (Count.leaf _ (.kw .interface) c!"interface Another { };").1 = 19 := rfl
  obtain ⟨h1, h2, -⟩ := C67_local (.kw .interface) c!"interface Another { };" (c!"interface Another {" ++ t) (by rw [h]; rfl)
  obtain ⟨w, r', h3, h4, -, h5⟩ := h2 c!"Another { };" () rfl
  have h6 : w = c!"interface " := List.append_cancel_right (bs := c!"Another { };") (by rw [← h3]; rfl)
  subst h6
  have h7 : r' = c!"Another {" ++ t := (List.append_cancel_left (as := c!"interface ") (by rw [← h4]; rfl)).symm
  exact ⟨h1.trans h, by rw [h5, h7]⟩

/-- A string without end is read to the end, and so is a comment without end. -/
example : (Count.leaf _ .string c!"\"abcdefgh").1 = 14 ∧ (Count.leaf _ .ident c!"/*abcdefgh").1 = 16 := ⟨rfl, rfl⟩

/-- **Linear time.** In a document whose brackets are nested at most `d` deep, all the terminals together look at most
`3245724 * 553 ^ d` times the length (and one) at a character, whether the document is accepted or not. -/
theorem C67_document (d : Nat) (s : Str) (hd : nest s ≤ d) (L : List (Attempt Char)) (x : Res Char (List Definition))
    (h : Traced charLeaf G.definitions s L x) :
    (L.map fun a => (Count.leaf _ a.leaf a.place).1).sum ≤ 3245724 * 553 ^ d * (s.length + 1) := by
  have h1 := Count.looks_le h (K := 60106 * 553 ^ d) fun m n hn => Visits.document_visits d hd hn
  rwa [← Nat.mul_assoc] at h1

/-- There is an execution for each document, so that the bound speaks about something. -/
example (s : Str) (h : s = c!"interface A { const double x = 07.5; void f(optional DOMString s = \"\", (B or C) y);") : nest s = 2 ∧
    ∃ L x, Traced charLeaf G.definitions s L x ∧
      (L.map fun a => (Count.leaf _ a.leaf a.place).1).sum ≤ 3245724 * 553 ^ 2 * (s.length + 1) := by
  have h0 : nest s = 2 := by rw [h]; rfl
  obtain ⟨_, h1⟩ := Runs.parse charLeaf_fine guarded_definitions s
  obtain ⟨L, h2⟩ := Spec.Traced.of_runs h1
  exact ⟨h0, L, _, h2, C67_document 2 s (Nat.le_of_eq h0) L _ h2⟩

/-- `Type::parse`, `Argument::parse`, `ExtendedAttributeList::parse` and `Definition::parse`, with better factors. -/
theorem C67_type (d : Nat) (s : Str) (hd : nest s ≤ d) (L : List (Attempt Char)) (x : Res Char Ty) (h : Traced charLeaf G.type s L x) :
    (L.map fun a => (Count.leaf _ a.leaf a.place).1).sum ≤ 5562 * 553 ^ d * (s.length + 1) := by
  have h1 := Count.looks_le h (K := 103 * 553 ^ d) fun m n hn => (C65_type d s hd m n x hn).1
  rwa [← Nat.mul_assoc] at h1

theorem C67_argument (d : Nat) (s : Str) (hd : nest s ≤ d) (L : List (Attempt Char)) (x : Res Char Argument)
    (h : Traced charLeaf G.argument s L x) :
    (L.map fun a => (Count.leaf _ a.leaf a.place).1).sum ≤ 29862 * 553 ^ d * (s.length + 1) := by
  have h1 := Count.looks_le h (K := 553 * 553 ^ d) fun m n hn => (C65_argument d s hd m n x hn).1
  rwa [← Nat.mul_assoc] at h1

theorem C67_attributes (d : Nat) (s : Str) (hd : nest s ≤ d) (L : List (Attempt Char)) (x : Res Char (List ExtAttr))
    (h : Traced charLeaf G.extAttrList s L x) :
    (L.map fun a => (Count.leaf _ a.leaf a.place).1).sum ≤ 5886 * 553 ^ d * (s.length + 1) := by
  have h1 := Count.looks_le h (K := 109 * 553 ^ d) fun m n hn => (C65_attributes d s hd m n x hn).1
  rwa [← Nat.mul_assoc] at h1

theorem C67_definition (d : Nat) (s : Str) (hd : nest s ≤ d) (L : List (Attempt Char)) (x : Res Char Definition)
    (h : Traced charLeaf G.definition s L x) :
    (L.map fun a => (Count.leaf _ a.leaf a.place).1).sum ≤ 1622862 * 553 ^ d * (s.length + 1) := by
  have h1 := Count.looks_le h (K := 30053 * 553 ^ d) fun m n hn => C65_definition d s hd m n x hn
  rwa [← Nat.mul_assoc] at h1

/-! ## The whole parser with a counter -/

/-- The parser that counts is the parser, and what it counts are the looks of the terminals it tries. -/
theorem C67_counter (g : G α) (hg : Guarded true g false ∨ Guarded true g true) (s : Str) :
    (Count.parse g s).2 = g.parse s ∧
    ∃ L, Traced charLeaf g s L (g.parse s) ∧ (Count.parse g s).1 = (L.map fun a => (Count.leaf _ a.leaf a.place).1).sum := by
  rcases hg with hg | hg <;> exact ⟨Count.same_parse hg s, Count.told_parse hg s⟩

/-- `typedef long a;`, of 15 characters, needs 198 looks, and two blanks in front of it 96 more: they are skipped anew for each
keyword that is tried. -/
example : (Count.parse G.definition c!"typedef long a;").1 = 198 ∧ (Count.parse G.definition c!"  typedef long a;").1 = 294 := by
  constructor <;> decide +kernel

/-- What is not counted has no influence, for the whole parser: if two texts agree in as many characters as are counted, the same
value is returned for both, the same piece of both is read, and the same is counted; or both are rejected. -/
theorem C67_determined (g : G α) (hg : Guarded true g false ∨ Guarded true g true) (s t : Str)
    (h : t.take (Count.parse g s).1 = s.take (Count.parse g s).1) :
    (Count.parse g t).1 = (Count.parse g s).1 ∧
    (∀ r v, g.parse s = .ok r v →
      ∃ w r', s = w ++ r ∧ t = w ++ r' ∧ w.length ≤ (Count.parse g s).1 ∧ g.parse t = .ok r' v) ∧
    (∀ p k, g.parse s = .err (.error p k) → ∃ p', g.parse t = .err (.error p' k)) := by
  have hl : Count.Local (Count.parse g) := by rcases hg with hg | hg <;> exact .parse hg
  have hs : ∀ u, (Count.parse g u).2 = g.parse u := by rcases hg with hg | hg <;> exact Count.same_parse hg
  obtain ⟨h1, h2⟩ := hl s t h
  rw [hs, hs] at h2
  refine ⟨h1, fun r v e => ?_, fun p k e => ?_⟩
  · rw [e] at h2
    rcases h2.cases with ⟨_, r', _, w, h3, h4, h5, h6, h7⟩ | ⟨_, _, _, h3, -⟩ | ⟨_, _, _, h3, -⟩ | ⟨h3, -⟩ | ⟨h3, -⟩
    · cases h3; exact ⟨w, r', h5, h6, h7, h4⟩
    all_goals cases h3
  · rw [e] at h2
    rcases h2.cases with ⟨_, r', _, w, h3, -⟩ | ⟨_, p', _, h3, h4⟩ | ⟨_, _, _, h3, -⟩ | ⟨h3, -⟩ | ⟨h3, -⟩
    · cases h3
    · cases h3; exact ⟨p', h4⟩
    all_goals cases h3

/-- Nothing is read unseen: the characters read are at most the characters looked at. -/
theorem C67_atleast (g : G α) (hg : Guarded true g false ∨ Guarded true g true) (s r : Str) (v : α) (h : g.parse s = .ok r v) :
    s.length ≤ (Count.parse g s).1 + r.length := by
  obtain ⟨-, L, h1, h2⟩ := C67_counter g hg s
  rw [h2]
  exact Count.low h1 r v h

/-- The linear bound, for the counter of the whole parser: `weedle::parse`, accepted or not. -/
theorem C67_time (d : Nat) (s : Str) (hd : nest s ≤ d) : (Count.parse G.definitions s).1 ≤ 3245724 * 553 ^ d * (s.length + 1) := by
  obtain ⟨-, L, h1, h2⟩ := C67_counter G.definitions (.inl guarded_definitions) s
  rw [h2]
  exact C67_document d s hd L _ h1

/-- An accepted document is looked at from one end to the other, and not much more often than that. -/
theorem C67_accepted (d : Nat) (s : Str) (hd : nest s ≤ d) (ds : List Definition) (h : weedleParse s = .ok ds) :
    s.length ≤ (Count.parse G.definitions s).1 ∧ (Count.parse G.definitions s).1 ≤ 3245724 * 553 ^ d * (s.length + 1) := by
  refine ⟨?_, C67_time d s hd⟩
  have h1 : G.definitions.parse s = .ok [] ds := by
    unfold weedleParse at h
    split at h
    · next r v e =>
      split at h
      · next hr => cases h; rw [List.isEmpty_iff] at hr; rw [e, hr]
      · cases h
    · cases h
    · cases h
  exact C67_atleast G.definitions (.inl guarded_definitions) s [] ds h1

example : ∃ ds, weedleParse c!"typedef long a; enum E { \"x\" };" = .ok ds ∧ ds.length = 2 := ⟨_, rfl, rfl⟩

/-- Without a bound on the nesting there is no such bound: the accepted texts of C35, of `10 * n + 22` characters, need at least
`2 ^ n` looks. -/
theorem C67_exponential (n : Nat) : (nestedDoc n).length = 10 * n + 22 ∧ (∃ d, weedleParse (nestedDoc n) = .ok [d]) ∧
    2 ^ n ≤ (Count.parse G.definitions (nestedDoc n)).1 := by
  obtain ⟨h1, h2, -, h3⟩ := C35_exponential n
  obtain ⟨-, L, h4, h5⟩ := C67_counter G.definitions (.inl guarded_definitions) (nestedDoc n)
  refine ⟨h1, h2, Nat.le_trans (h3 _ _ h4.runs) ?_⟩
  rw [h5]
  exact Count.length_le_looks L

end Verif.Properties
