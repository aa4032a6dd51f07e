import Verif.Proof.CountSum

/-!
# C66: a text is cut into lexemes in only one way

The parsers work on characters: there is no pass that cuts a document into lexemes first, and each alternative reads the text in
its own way. `Traced charLeaf g s L x` (`Verif/Spec/Trace.lean`): the parser `g`, run on `s`, ends with `x`, and `L` lists the
terminals it has tried, `a.leaf`, with the texts `a.place` on which it has tried them. The statements hold for texts that are
accepted and for texts that are rejected.
-/

namespace Verif.Properties
open Nom Spec Count

variable {α : Type}

/-- Each run has a list of attempts, and only one. -/
theorem C66_trace (g : G α) (hg : Guarded true g false ∨ Guarded true g true) (s : Str) :
    ∃ L, Traced charLeaf g s L (g.parseWith charLeaf s) ∧ ∀ L' x, Traced charLeaf g s L' x → L' = L ∧ x = g.parseWith charLeaf s := by
  have h : ∃ c, Runs charLeaf g s c (g.parseWith charLeaf s) := by
    rcases hg with hg | hg
    · exact Runs.parse charLeaf_fine hg s
    · exact Runs.parse charLeaf_fine hg s
  obtain ⟨c, h⟩ := h
  obtain ⟨L, h⟩ := Spec.Traced.of_runs h
  exact ⟨L, h, fun L' x h' => Spec.Traced.det h _ _ h'⟩

/-- Its length is the number of attempts of C35 and C63. -/
theorem C66_length (g : G α) (s : Str) (L : List (Attempt Char)) (x : Res Char α) (h : Traced charLeaf g s L x) :
    Runs charLeaf g s L.length x := h.runs

/-- A terminal is tried only at the beginning of the text or where a terminal that was read has ended. -/
theorem C66_linked (g : G α) (s : Str) (L : List (Attempt Char)) (x : Res Char α) (h : Traced charLeaf g s L x) :
    (∀ a ∈ L, a.place = s ∨ ∃ b ∈ L, ∃ v, charLeaf _ b.leaf b.place = .ok a.place v) ∧
    ∀ r v, x = .ok r v → r = s ∨ ∃ b ∈ L, ∃ v, charLeaf _ b.leaf b.place = .ok r v := Cut.linked h

/-- Two terminals that are read at the same place of a document end at the same place. -/
theorem C66_document (s : Str) (L : List (Attempt Char)) (x : Res Char (List Definition)) (h : Traced charLeaf G.definitions s L x)
    (a b : Attempt Char) (ha : a ∈ L) (hb : b ∈ L) (hp : a.place = b.place) (r r' : Str) (v : a.type) (v' : b.type)
    (h1 : charLeaf _ a.leaf a.place = .ok r v) (h2 : charLeaf _ b.leaf b.place = .ok r' v') : r = r' := by
  obtain ⟨h3, -⟩ := Cut.tidy h
  refine Cut.Next.unique (s := b.place) ⟨_, a.leaf, v, ?_, ?_⟩ ⟨_, b.leaf, v', (h3 b hb).2, h2⟩
  · exact hp ▸ (h3 a ha).2
  · exact hp ▸ h1

/-- There is one sequence of places, from the beginning of the document on, each one a proper suffix of the ones before: each
terminal is tried at one of them, and if it is read it ends at the next one. -/
theorem C66_cuts (s : Str) (L : List (Attempt Char)) (x : Res Char (List Definition)) (h : Traced charLeaf G.definitions s L x) :
    ∃ T : List Str, T.head? = some s ∧ (T.Pairwise fun t u => u.length < t.length ∧ u <:+ t) ∧
      ∀ a ∈ L, a.place ∈ T ∧
        ∀ r v, charLeaf _ a.leaf a.place = .ok r v → ∃ k, T[k]? = some a.place ∧ T[k + 1]? = some r := cuts h

/-- The same for the parsers of a definition, a type, an argument and a list of attributes. -/
theorem C66_parts {α : Type} (g : G α)
    (hg : (⟨α, g⟩ : (α : Type) × G α) ∈ ([⟨_, G.definition⟩, ⟨_, G.type⟩, ⟨_, G.argument⟩, ⟨_, G.extAttrList⟩, ⟨_, G.defaultValue⟩,
      ⟨_, G.constValue⟩, ⟨_, G.interfaceMember⟩, ⟨_, G.mixinMember⟩, ⟨_, G.namespaceMember⟩, ⟨_, G.dictionaryMember⟩] :
        List ((α : Type) × G α)))
    (s : Str) (L : List (Attempt Char)) (x : Res Char α) (h : Traced charLeaf g s L x) :
    ∃ T : List Str, T.head? = some s ∧ (T.Pairwise fun t u => u.length < t.length ∧ u <:+ t) ∧
      ∀ a ∈ L, a.place ∈ T ∧
        ∀ r v, charLeaf _ a.leaf a.place = .ok r v → ∃ k, T[k]? = some a.place ∧ T[k + 1]? = some r := by
  simp only [List.mem_cons, List.not_mem_nil, or_false] at hg
  rcases hg with hg | hg | hg | hg | hg | hg | hg | hg | hg | hg <;> cases hg <;> exact cuts h

/-- The attempts of a document that is accepted: terminals are read, and the last one ends at the end. -/
example (s : Str) (hs : s = c!"typedef long x;") : ∃ L, Traced charLeaf G.definitions s L (G.definitions.parseWith charLeaf s) ∧
    ∃ b ∈ L, ∃ v, charLeaf _ b.leaf b.place = .ok [] v := by
  obtain ⟨L, h, -⟩ := C66_trace G.definitions (.inl guarded_definitions) s
  refine ⟨L, h, ?_⟩
  have e : ∃ v, G.definitions.parseWith charLeaf s = .ok [] v := by rw [hs]; exact ⟨_, rfl⟩
  obtain ⟨v, e⟩ := e
  rcases (C66_linked _ _ _ _ h).2 [] v e with h1 | h1
  · rw [hs] at h1; cases h1
  · exact h1

/-- Different terminals at the same place: `Promise` is read as a keyword, then `<` is missing, and it is read as a name. -/
example : ∃ L x, Traced charLeaf (.orElse (.bind (G.kw .promise) fun _ => .bind (G.punct .lessThan) fun _ => .ret c!"") G.ident) c!"Promise x" L x ∧
    ∃ a ∈ L, ∃ b ∈ L, a.place = b.place ∧ ∃ v, charLeaf _ a.leaf a.place = .ok c!"x" v ∧ ∃ v', charLeaf _ b.leaf b.place = .ok c!"x" v' := by
  refine ⟨[⟨.kw .promise, c!"Promise x"⟩] ++ [⟨.punct .lessThan, c!"x"⟩] ++ [⟨.ident, c!"Promise x"⟩], .ok c!"x" c!"Promise",
    .orElseNext (p := c!"x") (k := .tag) (.bindOk (r := c!"x") (a := ()) .leaf (.bindErr .leaf)) .leaf,
    ⟨.kw .promise, c!"Promise x"⟩, by simp, ⟨.ident, c!"Promise x"⟩, by simp, rfl, (), rfl, c!"Promise", rfl⟩

/-- What is ruled out. If a decimal number were tried before one with a fraction, `1.5` could be cut behind `1`. -/
example : ∃ L x, Traced charLeaf (.orElse (.bind (.leaf .dec) fun v => .bind (G.punct .semiColon) fun _ => .ret v) (.leaf .float)) c!"1.5" L x ∧
    ∃ a ∈ L, ∃ b ∈ L, a.place = b.place ∧ ∃ r v, charLeaf _ a.leaf a.place = .ok r v ∧ ∃ r' v', charLeaf _ b.leaf b.place = .ok r' v' ∧ r ≠ r' := by
  refine ⟨[⟨.dec, c!"1.5"⟩] ++ [⟨.punct .semiColon, c!".5"⟩] ++ [⟨.float, c!"1.5"⟩], .ok [] c!"1.5",
    .orElseNext (p := c!".5") (k := .tag) (.bindOk (r := c!".5") (a := c!"1") .leaf (.bindErr .leaf)) .leaf,
    ⟨.dec, c!"1.5"⟩, by simp, ⟨.float, c!"1.5"⟩, by simp, rfl, c!".5", c!"1", rfl, [], c!"1.5", rfl, by simp⟩

end Verif.Properties
