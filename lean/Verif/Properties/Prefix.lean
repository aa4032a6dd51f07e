import Verif.Proof.Prefix

/-!
# C45: cutting and extending a document

What follows the semicolon at the end of a definition or of a member has no influence on how it
is read, so a document cut short never parses as something else than a beginning of the whole.
-/

namespace Verif.Properties
open Nom Spec

/-- The text after a definition has no influence on it: with any other text the same definition
is read, and reading continues after the trivia at the beginning of that text. -/
theorem C45_definition (p r r' : Str) (d : Definition) (h : G.definition.parse (p ++ r) = .ok r d) :
    ∃ e, Skips r' e ∧ G.definition.parse (p ++ r') = .ok e d :=
  replace_rest semi_definition definition_iff h

example (r' : Str) : ∃ e, Skips r' e ∧ G.definition.parse (c!"a includes b; " ++ r') = .ok e (.includesStatement none c!"a" c!"b") :=
  C45_definition _ c!"x" r' _ rfl

/-- The same for members of interfaces, … -/
theorem C45_interface_member (p r r' : Str) (m : InterfaceMember)
    (h : G.interfaceMember.parse (p ++ r) = .ok r m) :
    ∃ e, Skips r' e ∧ G.interfaceMember.parse (p ++ r') = .ok e m :=
  replace_rest (fun m => (closed_interfaceMember m).semi) interfaceMember_iff h

example (r' : Str) : ∃ e m, Skips r' e ∧ G.interfaceMember.parse (c!"attribute long x;" ++ r') = .ok e m := by
  obtain ⟨e, h⟩ := C45_interface_member c!"attribute long x;" c!"};" r' _ rfl
  exact ⟨e, _, h⟩

/-- … mixins, … -/
theorem C45_mixin_member (p r r' : Str) (m : MixinMember) (h : G.mixinMember.parse (p ++ r) = .ok r m) :
    ∃ e, Skips r' e ∧ G.mixinMember.parse (p ++ r') = .ok e m :=
  replace_rest (fun m => (closed_mixinMember m).semi) mixinMember_iff h

example (r' : Str) : ∃ e m, Skips r' e ∧ G.mixinMember.parse (c!"stringifier;" ++ r') = .ok e m := by
  obtain ⟨e, h⟩ := C45_mixin_member c!"stringifier;" c!"};" r' _ rfl
  exact ⟨e, _, h⟩

/-- … namespaces … -/
theorem C45_namespace_member (p r r' : Str) (m : NamespaceMember)
    (h : G.namespaceMember.parse (p ++ r) = .ok r m) :
    ∃ e, Skips r' e ∧ G.namespaceMember.parse (p ++ r') = .ok e m :=
  replace_rest (fun m => (closed_namespaceMember m).semi) namespaceMember_iff h

example (r' : Str) : ∃ e m, Skips r' e ∧ G.namespaceMember.parse (c!"long x();" ++ r') = .ok e m := by
  obtain ⟨e, h⟩ := C45_namespace_member c!"long x();" c!"};" r' _ rfl
  exact ⟨e, _, h⟩

/-- … and dictionaries. -/
theorem C45_dictionary_member (p r r' : Str) (m : DictionaryMember)
    (h : G.dictionaryMember.parse (p ++ r) = .ok r m) :
    ∃ e, Skips r' e ∧ G.dictionaryMember.parse (p ++ r') = .ok e m :=
  replace_rest (fun m => (closed_dictionaryMember m).semi) dictionaryMember_iff h

example (r' : Str) : ∃ e m, Skips r' e ∧ G.dictionaryMember.parse (c!"long x = 0;" ++ r') = .ok e m := by
  obtain ⟨e, h⟩ := C45_dictionary_member c!"long x = 0;" c!"};" r' _ rfl
  exact ⟨e, _, h⟩

/-- A document with at least one definition can be extended by trivia, by another document, and by
nothing else. -/
theorem C45_extend (p q : Str) (ds ds' : List Definition) (hp : weedleParse p = .ok ds') (hd : ds' ≠ []) :
    weedleParse (p ++ q) = .ok ds ↔
      (Trivia q ∧ ds = ds') ∨ ∃ ds'', weedleParse q = .ok ds'' ∧ ds = ds' ++ ds'' := by
  simp only [document_iff] at hp ⊢
  exact document_extend hp hd

example (q : Str) (ds : List Definition) : weedleParse (c!"a includes b;" ++ q) = .ok ds ↔
    (Trivia q ∧ ds = [.includesStatement none c!"a" c!"b"]) ∨
    ∃ ds'', weedleParse q = .ok ds'' ∧ ds = [.includesStatement none c!"a" c!"b"] ++ ds'' :=
  C45_extend _ q ds _ rfl (by simp)

/-- If a document cut short is still accepted, the result is a beginning of the result of the
whole. -/
theorem C45_cut (p q : Str) (ds ds' : List Definition) (h : weedleParse (p ++ q) = .ok ds)
    (hp : weedleParse p = .ok ds') : ds' <+: ds := by
  by_cases hd : ds' = []
  · subst hd; exact List.nil_prefix
  · rcases (C45_extend p q ds ds' hp hd).1 h with ⟨-, rfl⟩ | ⟨ds'', -, rfl⟩
    · exact List.prefix_refl _
    · exact List.prefix_append _ _

example : [Definition.includesStatement none c!"a" c!"b"] <+: [.includesStatement none c!"a" c!"b", .enum none c!"c" [c!"d"]] :=
  C45_cut c!"a includes b;" c!" enum c { \"d\" };" _ _ rfl rfl

/-- The rest of the whole is then accepted on its own, or trivia. -/
theorem C45_rest (p q : Str) (ds ds' : List Definition) (h : weedleParse (p ++ q) = .ok ds)
    (hp : weedleParse p = .ok ds') (hd : ds' ≠ []) :
    Trivia q ∨ ∃ ds'', weedleParse q = .ok ds'' := by
  rcases (C45_extend p q ds ds' hp hd).1 h with ⟨h, -⟩ | ⟨ds'', h, -⟩
  · exact .inl h
  · exact .inr ⟨ds'', h⟩

/-- A definition, other text after it, and what is then read. -/
example : ∃ d, G.definition.parse (c!"enum E { \"a\" };" ++ c!"typedef A B;") = .ok c!"typedef A B;" d ∧
    G.definition.parse (c!"enum E { \"a\" };" ++ c!" // x\n\"?") = .ok c!"\"?" d := ⟨_, rfl, rfl⟩

example : ∃ m, G.interfaceMember.parse (c!"attribute long x;" ++ c!"};") = .ok c!"};" m ∧
    G.interfaceMember.parse (c!"attribute long x;" ++ c!"\n0") = .ok c!"0" m := ⟨_, rfl, rfl⟩

example : ∃ m, G.mixinMember.parse (c!"attribute long x;" ++ c!"};") = .ok c!"};" m ∧
    G.mixinMember.parse (c!"attribute long x;" ++ c!"\n0") = .ok c!"0" m := ⟨_, rfl, rfl⟩

example : ∃ m, G.namespaceMember.parse (c!"long x();" ++ c!"};") = .ok c!"};" m ∧
    G.namespaceMember.parse (c!"long x();" ++ c!"\n0") = .ok c!"0" m := ⟨_, rfl, rfl⟩

example : ∃ m, G.dictionaryMember.parse (c!"long x = 0;" ++ c!"};") = .ok c!"};" m ∧
    G.dictionaryMember.parse (c!"long x = 0;" ++ c!"\n.") = .ok c!"." m := ⟨_, rfl, rfl⟩

/-- A document, and a beginning of it that is accepted. -/
example : ∃ a b, weedleParse (c!"A includes B; " ++ c!"typedef A C;") = .ok [a, b] ∧
    weedleParse c!"A includes B; " = .ok [a] ∧ weedleParse c!"typedef A C;" = .ok [b] := ⟨_, _, rfl, rfl, rfl⟩

/-- What a type or a value is followed by does have an influence: `long` is not read as a type by
itself when another `long` or a question mark follows. -/
example : ∃ t t', G.type.parse (c!"long" ++ c!";") = .ok c!";" t ∧ G.type.parse (c!"long" ++ c!"?;") = .ok c!";" t' ∧
    t ≠ t' := ⟨_, _, rfl, rfl, by simp⟩

end Verif.Properties
