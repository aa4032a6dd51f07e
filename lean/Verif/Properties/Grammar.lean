import Verif.Proof.Append
import Verif.Proof.Lexer
import Verif.Properties.Robustness

/-!
# C05, C18 - C20, C22, C23, C33, C36: documents against the grammar

`Document ds s` (`Verif/Spec/Grammar.lean`): the text `s` is a spelling of the definitions `ds`.
-/

namespace Verif.Properties
open Nom Spec

/-! ## C19, C20: the accepted texts and their ASTs are those of the grammar -/

/-- Soundness: what was returned is spelled, lexeme by lexeme, by the whole input. -/
theorem C19_soundness (s : Str) (ds : List Definition) (h : weedleParse s = .ok ds) : Document ds s :=
  document_iff.1 h

example : Document [.includesStatement none c!"A" c!"B"] c!"A /**/ includes _B; " := C19_soundness _ _ rfl

/-- Completeness: every spelling of `ds` is parsed, and parsed to `ds`. -/
theorem C20_completeness (s : Str) (ds : List Definition) (h : Document ds s) : weedleParse s = .ok ds :=
  document_iff.2 h

theorem includes_spelled : definitions [.includesStatement none c!"A" c!"B"] [c!"A", c!"includes", c!"_B", c!";"] := by
  have hw : ∀ c, c.isAlpha = true → Regex.word.Matches [c] := fun c hc => word_iff.2 ⟨c, [], rfl, hc, by simp⟩
  refine ⟨[c!"A", c!"includes", c!"_B", c!";"], [], rfl, ⟨[], _, rfl, rfl, ?_⟩, rfl⟩
  exact ⟨[c!"A"], _, rfl, ⟨⟨hw _ (by decide), .inl rfl⟩, by decide⟩, [c!"includes"], _, rfl, rfl, [c!"_B"], [c!";"], rfl,
    ⟨hw _ (by decide), .inr rfl⟩, rfl⟩

example : weedleParse (spaced [c!"A", c!"includes", c!"_B", c!";"]) = .ok [.includesStatement none c!"A" c!"B"] :=
  C20_completeness (spaced _) _ (.inr ⟨by simp, [], _, _, rfl, .nil, includes_spelled, text_spaced _⟩)

/-- `weedle::parse` panics exactly on the texts that are no document. -/
theorem C20_panics_iff (s : Str) : weedleParse s = .panic ↔ ∀ ds, ¬ Document ds s := by
  constructor
  · intro h ds hd
    rw [document_iff.2 hd] at h
    cases h
  · intro h
    rcases C02_never_err s with ⟨ds, h'⟩ | h'
    · exact absurd (document_iff.1 h') (h ds)
    · exact h'

example : ∀ ds, ¬ Document ds c!"A includes;" := (C20_panics_iff _).1 rfl

/-- The types implementing `Parse` and the spellings of their values. Not listed are those whose
spelling can end in a number, since nothing separates `1` from `a` in `1a`: the number literals
(C10 - C13), default values and single arguments. -/
inductive Production : {α : Type} → G α → (α → Lang) → Prop where
  | booleanLit : Production G.booleanLit booleanLit
  | stringLit : Production G.stringLit string
  | ident : Production G.ident name
  | integerType : Production G.integerType integerType
  | floatingPointType : Production G.floatingPointType floatingPointType
  | type : Production G.type type
  | nonAnyType : Production G.nonAnyType nonAnyType
  | recordKeyType : Production G.recordKeyType recordKeyType
  | unionMember : Production G.unionMemberType unionMember
  | returnType : Production G.returnType returnType
  | attributedType : Production G.attributedType attributedType
  | constType : Production G.constType constType
  | identifierOrString : Production G.identifierOrString identifierOrString
  | extAttr : Production G.extAttr extAttr
  | attributes : Production G.attrs attributes
  | arguments : Production (G.parenthesized G.argumentList) argumentList
  | constMember : Production G.constMember constMember
  | attributeInterfaceMember : Production G.attributeInterfaceMember attributeInterfaceMember
  | constructorInterfaceMember : Production G.constructorInterfaceMember constructorInterfaceMember
  | iterable : Production G.iterableInterfaceMember iterableInterfaceMember
  | asyncIterable : Production G.asyncIterableInterfaceMember asyncIterableInterfaceMember
  | maplike : Production G.maplikeInterfaceMember maplikeInterfaceMember
  | setlike : Production G.setlikeInterfaceMember setlikeInterfaceMember
  | stringifier : Production G.stringifierMember stringifierMember
  | interfaceMember : Production G.interfaceMember interfaceMember
  | operationMixinMember : Production G.operationMixinMember operationMixinMember
  | attributeMixinMember : Production G.attributeMixinMember attributeMixinMember
  | mixinMember : Production G.mixinMember mixinMember
  | operationNamespaceMember : Production G.operationNamespaceMember operationNamespaceMember
  | attributeNamespaceMember : Production G.attributeNamespaceMember attributeNamespaceMember
  | namespaceMember : Production G.namespaceMember namespaceMember
  | dictionaryMember : Production G.dictionaryMember dictionaryMember
  | definition : Production G.definition definition
  | definitions : Production G.definitions definitions

theorem Production.sound {α : Type} {g : G α} {L : α → Lang} (h : Production g L) :
    Snd charLeaf CStep (ntLim charLeaf) g L ∧ ∀ a, AllGood (L a) := by
  have S := exact_char.toStepping
  have N := ntSound_char
  cases h with
  | booleanLit => exact ⟨snd_booleanLit S, fun a => (tidy_booleanLit a).allGood⟩
  | stringLit => exact ⟨snd_stringLit S, fun a => (Tidy.string a).allGood⟩
  | ident => exact ⟨Snd.ident S, fun a => (Tidy.name a).allGood⟩
  | integerType =>
    exact ⟨fun s => .mono (sndAt_integerType S s) fun _ _ _ h => h.1, fun a => (tidy_integerType a).allGood⟩
  | floatingPointType =>
    exact ⟨fun s => .mono (sndAt_floatingPointType S s) fun _ _ _ h => h.1,
      fun a => (tidy_floatingPointType a).allGood⟩
  | type => exact ⟨snd_type S N, fun a => (tidy_type a).allGood⟩
  | nonAnyType =>
    exact ⟨fun s => .mono (sndAt_nonAnyType S N s) fun _ _ _ h => h.1, fun a => (tidy_nonAnyType a).allGood⟩
  | recordKeyType => exact ⟨sndAt_recordKeyType S N, fun a => (tidy_recordKeyType a).allGood⟩
  | unionMember => exact ⟨snd_unionMemberType S N, fun a => (tidy_unionMember a).allGood⟩
  | returnType => exact ⟨snd_returnType S N, fun a => (tidy_returnType a).allGood⟩
  | attributedType => exact ⟨snd_attributedType S N, fun a => (tidy_attributedType a).allGood⟩
  | constType =>
    exact ⟨fun s => .mono (sndAt_constType S s) fun _ _ _ h => h.1, fun a => (tidy_constType a).allGood⟩
  | identifierOrString => exact ⟨snd_identifierOrString S, fun a => (tidy_idOrString a).allGood⟩
  | extAttr => exact ⟨snd_extAttr S N, fun a => (tidy_extAttr a).allGood⟩
  | attributes => exact ⟨snd_attrs S N, fun a => (tidy_attributes a).allGood⟩
  | arguments => exact ⟨snd_parenArgs S N, fun a => (tidy_argumentList a).allGood⟩
  | constMember => exact ⟨snd_constMember S N, fun a => (closed_constMember a).allGood⟩
  | attributeInterfaceMember =>
    exact ⟨snd_attributeInterfaceMember S N, fun a => (closed_attributeInterfaceMember a).allGood⟩
  | constructorInterfaceMember =>
    exact ⟨snd_constructorInterfaceMember S N, fun a => (closed_constructorInterfaceMember a).allGood⟩
  | iterable => exact ⟨snd_iterable S N, fun a => (closed_iterable a).allGood⟩
  | asyncIterable => exact ⟨snd_asyncIterable S N, fun a => (closed_asyncIterable a).allGood⟩
  | maplike => exact ⟨snd_maplike S N, fun a => (closed_maplike a).allGood⟩
  | setlike => exact ⟨snd_setlike S N, fun a => (closed_setlike a).allGood⟩
  | stringifier => exact ⟨snd_stringifierMember S N, fun a => (closed_stringifierMember a).allGood⟩
  | interfaceMember => exact ⟨snd_interfaceMember S N, fun a => (closed_interfaceMember a).allGood⟩
  | operationMixinMember => exact ⟨snd_operationMixinMember S N, fun a => (closed_operationMixinMember a).allGood⟩
  | attributeMixinMember => exact ⟨snd_attributeMixinMember S N, fun a => (closed_attributeMixinMember a).allGood⟩
  | mixinMember => exact ⟨snd_mixinMember S N, fun a => (closed_mixinMember a).allGood⟩
  | operationNamespaceMember =>
    exact ⟨snd_operationNamespaceMember S N, fun a => (closed_operationNamespaceMember a).allGood⟩
  | attributeNamespaceMember =>
    exact ⟨snd_attributeNamespaceMember S N, fun a => (closed_attributeNamespaceMember a).allGood⟩
  | namespaceMember => exact ⟨snd_namespaceMember S N, fun a => (closed_namespaceMember a).allGood⟩
  | dictionaryMember => exact ⟨snd_dictionaryMember S N, fun a => (closed_dictionaryMember a).allGood⟩
  | definition => exact ⟨snd_definition S N, allGood_definition⟩
  | definitions => exact ⟨snd_definitions S N, allGood_definitions⟩

/-- The value returned by `T::parse` is spelled by the text it consumed. -/
theorem C19_productions {α : Type} {g : G α} {L : α → Lang} (hg : Production g L) (s r : Str) (a : α)
    (h : g.parse s = .ok r a) : Spells L a s r := by
  obtain ⟨h1, h2⟩ := hg.sound
  obtain ⟨ls, h3, h4⟩ := h1 s r a h
  by_cases hl : ls = []
  · subst hl
    cases h3
    exact ⟨[], [], s, rfl, .nil, h4, .nil⟩
  · obtain ⟨t, b, h5, h6, h7⟩ := reads_spells h3 hl (h2 a ls h4)
    exact ⟨t, ls, b, h5, h6, h4, h7⟩

example : Spells type (.single .any) c!" any ;" c!";" := C19_productions .type _ _ _ rfl

/-- Definitions and members are recognised wherever they are spelled, whatever follows. -/
theorem C20_definition (d : Definition) (s r : Str) (h : Spells definition d s r) (hr : NoTrivia r) :
    G.definition.parse s = .ok r d := definition_iff.2 ⟨h, strip_of_noTrivia hr⟩

example : G.definition.parse c!"a includes b; )" = .ok c!")" (.includesStatement none c!"a" c!"b") :=
  C20_definition _ _ _ (C19_productions .definition c!"a includes b; )" _ _ rfl) (noTrivia_iff.2 rfl)

theorem C20_interfaceMember (m : InterfaceMember) (s r : Str) (h : Spells interfaceMember m s r)
    (hr : NoTrivia r) : G.interfaceMember.parse s = .ok r m := interfaceMember_iff.2 ⟨h, strip_of_noTrivia hr⟩

example : ∃ m, Spells interfaceMember m c!"static void f(); }" c!"}" ∧ NoTrivia c!"}" :=
  ⟨_, C19_productions .interfaceMember c!"static void f(); }" _ _ rfl, noTrivia_iff.2 rfl⟩

theorem C20_mixinMember (m : MixinMember) (s r : Str) (h : Spells mixinMember m s r)
    (hr : NoTrivia r) : G.mixinMember.parse s = .ok r m := mixinMember_iff.2 ⟨h, strip_of_noTrivia hr⟩

example : ∃ m, Spells mixinMember m c!"stringifier; }" c!"}" ∧ NoTrivia c!"}" :=
  ⟨_, C19_productions .mixinMember c!"stringifier; }" _ _ rfl, noTrivia_iff.2 rfl⟩

theorem C20_namespaceMember (m : NamespaceMember) (s r : Str) (h : Spells namespaceMember m s r)
    (hr : NoTrivia r) : G.namespaceMember.parse s = .ok r m := namespaceMember_iff.2 ⟨h, strip_of_noTrivia hr⟩

example : ∃ m, Spells namespaceMember m c!"readonly attribute A b; }" c!"}" ∧ NoTrivia c!"}" :=
  ⟨_, C19_productions .namespaceMember c!"readonly attribute A b; }" _ _ rfl, noTrivia_iff.2 rfl⟩

theorem C20_dictionaryMember (m : DictionaryMember) (s r : Str) (h : Spells dictionaryMember m s r)
    (hr : NoTrivia r) : G.dictionaryMember.parse s = .ok r m := dictionaryMember_iff.2 ⟨h, strip_of_noTrivia hr⟩

example : ∃ m, Spells dictionaryMember m c!"required A b; }" c!"}" ∧ NoTrivia c!"}" :=
  ⟨_, C19_productions .dictionaryMember c!"required A b; }" _ _ rfl, noTrivia_iff.2 rfl⟩

/-- A type is recognised wherever it is spelled, unless what follows could continue it. -/
theorem C20_type (t : Ty) (s r : Str) (h : Spells type t s r) (hr : NoTrivia r)
    (hc : ∀ w ∈ [c!"?", c!"<", c!"long", c!"short", c!"float", c!"double"], ¬ w <+: r) :
    G.type.parse s = .ok r t := by
  have hr' := strip_of_noTrivia hr
  have hn : ∀ w ∈ continuers, NotNext CStep r w := by
    rintro w hw m ⟨e, h1, -⟩
    rw [hr'] at h1
    exact hc w hw (h1 ▸ List.prefix_append _ _)
  obtain ⟨t0, ls, b, rfl, h1, h2, h3⟩ := h
  refine ok_type exact_char t h2 (spelled_reads h1 h3 ?_ ((tidy_type t).allGood ls h2) hr') 
    ⟨fun w' r'' h' h'' => hn w' (List.mem_of_mem_drop (twoWord_last h'')) r'' h', hn _ (by decide), hn _ (by decide)⟩
  rintro rfl
  obtain ⟨w, ls', h, -⟩ := type_head h2
  cases h

/-! A document with a bit of everything. -/

def sample : Str :=
  c!"[A=(b,c), D] partial interface mixin M { // x\n const unsigned long long a = -0x1F;\n
  stringifier readonly attribute ([E] sequence<(long or any)?> or Promise<undefined>) _static; };
  dictionary D : B { required long long c; record<DOMString, any> d = []; } ;"

set_option maxRecDepth 10000 in
example : ∃ ds, weedleParse sample = .ok ds ∧ ds.length = 2 ∧ Document ds sample :=
  ⟨_, rfl, rfl, C19_soundness _ _ rfl⟩

/-- A spelling checked by hand, for C20. -/
example : Document [.includesStatement none c!"A" c!"includes"] c!"/**/_A includes//\nincludes ;" := by
  refine .inr ⟨by simp, c!"/**/", [c!"_A", c!"includes", c!"includes", c!";"], _, rfl,
    .block (body := []) (by decide) .nil, ?_, ?_⟩
  · have w : ∀ c l, c.isAlpha = true → (∀ x ∈ l, isIdentChar x = true) → Regex.word.Matches (c :: l) :=
      fun c l h1 h2 => word_iff.2 ⟨c, l, rfl, h1, h2⟩
    exact ⟨_, [], by simp, ⟨[], _, rfl, by simp only [attributes]; rfl, [c!"_A"], _, rfl,
      ⟨⟨w _ _ (by decide) (by decide), .inr rfl⟩, by decide⟩, [_], _, rfl, rfl, [c!"includes"], [_], rfl,
      ⟨w _ _ (by decide) (by decide), .inl rfl⟩, rfl⟩, rfl⟩
  · have a : ∀ w e, (∀ d, List.head? e = some d → ¬ NameChar d) → Apart w e :=
      fun w e h c d _ h1 _ => h d h1
    exact .cons (w := c!"_A") (t := c!" ") (.white (by decide) .nil)
      (.cons (w := c!"includes") (t := c!"//\n") (.line (body := []) (by decide) .nil)
        (.cons (w := c!"includes") (t := c!" ") (.white (by decide) .nil)
          (.cons (w := c!";") (t := []) .nil .nil (a _ _ (by simp)))
          (a _ _ (by simp [NameChar])))
        (a _ _ (by simp [NameChar])))
      (a _ _ (by simp [NameChar]))

/-! ## C22: unambiguity -/

/-- A text spells at most one list of definitions. -/
theorem C22_unambiguous (s : Str) (ds ds' : List Definition) (h : Document ds s) (h' : Document ds' s) :
    ds = ds' := by
  have h1 := document_iff.2 h
  rw [document_iff.2 h'] at h1
  cases h1
  rfl

example (ds : List Definition) (h : Document ds c!"a includes b;") : ds = [.includesStatement none c!"a" c!"b"] :=
  C22_unambiguous _ _ _ h (C19_soundness _ _ rfl)

/-- Already the lexemes determine the definitions. -/
theorem C22_lexemes (ls : List Str) (ds ds' : List Definition) (h : definitions ds ls)
    (h' : definitions ds' ls) : ds = ds' := by
  have hb := text_spaced ls
  by_cases hd : ds = []
  · subst hd
    cases h
    by_cases hd' : ds' = []
    · exact hd'.symm
    · exact absurd rfl (definitions_ne_nil hd' h')
  · by_cases hd' : ds' = []
    · subst hd'
      cases h'
      exact absurd rfl (definitions_ne_nil hd h)
    · exact C22_unambiguous _ _ _ (.inr ⟨hd, [], ls, _, rfl, .nil, h, hb⟩)
        (.inr ⟨hd', [], ls, _, rfl, .nil, h', hb⟩)

example (ds : List Definition) (h : definitions ds [c!"A", c!"includes", c!"_B", c!";"]) :
    ds = [.includesStatement none c!"A" c!"B"] := C22_lexemes _ _ _ h includes_spelled

/-- A member or definition at the beginning of a text, and where it ends, is unique. -/
theorem C22_definition (s r r' : Str) (d d' : Definition) (h : Spells definition d s r)
    (h' : Spells definition d' s r') (hr : NoTrivia r) (hr' : NoTrivia r') : d = d' ∧ r = r' := by
  have h1 := C20_definition d s r h hr
  rw [C20_definition d' s r' h' hr'] at h1
  cases h1
  exact ⟨rfl, rfl⟩

example : ∃ d, Spells definition d c!"a includes b; c" c!"c" ∧ NoTrivia c!"c" :=
  ⟨_, C19_productions .definition c!"a includes b; c" _ _ rfl, noTrivia_iff.2 rfl⟩

/-! ## C36: lexical items -/

/-- A text has at most one sequence of lexical items. -/
theorem C36_unique (s : Str) (ls ls' : List Str) (h : Lexes s ls) (h' : Lexes s ls') : ls = ls' :=
  lexes_unique h h'

example : Lexes c!"a/**/-1 ;" [c!"a", c!"-1", c!";"] := lexes_sound (by decide +kernel)

/-- A valid document is a sequence of lexical items, which spell its definitions. -/
theorem C36_lexes (s : Str) (ds : List Definition) (h : weedleParse s = .ok ds) :
    ∃ ls, Lexes s ls ∧ definitions ds ls := by
  rcases document_lexes.1 (document_iff.1 h) with ⟨rfl, rfl⟩ | ⟨-, h⟩
  · exact ⟨[], lexes_nil, rfl⟩
  · exact h

set_option maxRecDepth 10000 in
example : ∃ ds ls, weedleParse sample = .ok ds ∧ Lexes sample ls ∧ definitions ds ls := by
  obtain ⟨ds, h⟩ : ∃ ds, weedleParse sample = .ok ds := ⟨_, rfl⟩
  obtain ⟨ls, h'⟩ := C36_lexes _ _ h
  exact ⟨ds, ls, h, h'⟩

/-! ## C18: layout insensitivity -/

/-- Two texts with the same lexical items have the same outcome. -/
theorem C18_layout (s s' : Str) (ls : List Str) (hl : ls ≠ []) (h : Lexes s ls) (h' : Lexes s' ls) :
    weedleParse s = weedleParse s' := by
  have key : ∀ {s s' : Str} {ds : List Definition}, Lexes s ls → Lexes s' ls →
      weedleParse s = .ok ds → weedleParse s' = .ok ds := by
    intro s s' ds h h' hp
    obtain ⟨ls', h1, h2⟩ := C36_lexes s ds hp
    obtain rfl := lexes_unique h h1
    refine document_iff.2 (document_lexes.2 (.inr ⟨?_, ls, h', h2⟩))
    rintro rfl
    exact hl h2
  rcases C02_never_err s with ⟨ds, h1⟩ | h1
  · rw [h1, key h h' h1]
  · rcases C02_never_err s' with ⟨ds, h2⟩ | h2
    · rw [key h' h h2, h2]
    · rw [h1, h2]

/-- Two layouts of an invalid text. -/
example : weedleParse c!"interface A // x\n{" = weedleParse c!"\tinterface/**/A{ " := by
  have a : ∀ c l, c.isAlpha = true → (∀ x ∈ l, isIdentChar x = true) → Item (c :: l) := fun c l h1 h2 =>
    .word (Regex.matches_seq.2 ⟨[], _, rfl, Regex.matches_opt.2 (.inr rfl), word_iff.2 ⟨c, l, rfl, h1, h2⟩⟩)
  have n : ∀ c l, c.isAlpha = true → ¬ Numeral (c :: l) := by
    intro c l h1 h2
    obtain ⟨c', v, h3, h4⟩ := Number.first h2
    cases h3
    exact not_number (.inl h1) h4
  have p : ¬ Numeral c!"{" := by
    intro h
    obtain ⟨c', v, h3, h4⟩ := Number.first h
    cases h3
    revert h4
    decide
  have sep : ∀ w e, ¬ Numeral w → (∀ d, List.head? e = some d → ¬ NameChar d) → Separate w e :=
    fun w e h1 h => ⟨fun c d _ h1 _ => h d h1, fun h => absurd h h1⟩
  refine C18_layout _ _ [c!"interface", c!"A", c!"{"] (by simp) ⟨[], _, rfl, .nil, ?_⟩
    ⟨c!"\t", _, rfl, .white (by simp) .nil, ?_⟩
  · exact .cons (w := c!"interface") (t := c!" ") (a _ _ (by decide) (by decide)) (.white (by simp) .nil)
      (.cons (w := c!"A") (t := c!" // x\n") (a _ _ (by decide) (by decide)) (.white (by simp)
        (.line (body := c!" x") (by decide) .nil))
        (.cons (w := c!"{") (t := []) (.punct (by decide)) .nil .nil (sep _ _ p (by simp)))
        (sep _ _ (n _ _ (by decide)) (by simp [NameChar])))
      (sep _ _ (n _ _ (by decide)) (by simp [NameChar]))
  · exact .cons (w := c!"interface") (t := c!"/**/") (a _ _ (by decide) (by decide)) (.block (body := []) (by decide) .nil)
      (.cons (w := c!"A") (t := []) (a _ _ (by decide) (by decide)) .nil
        (.cons (w := c!"{") (t := c!" ") (.punct (by decide)) (.white (by simp) .nil) .nil (sep _ _ p (by simp [NameChar])))
        (sep _ _ (n _ _ (by decide)) (by simp [NameChar])))
      (sep _ _ (n _ _ (by decide)) (by simp [NameChar]))

/-! ## C23: documents concatenate -/

theorem C23_concatenation (s s' : Str) (ds ds' : List Definition) (h : weedleParse s = .ok ds)
    (h' : weedleParse s' = .ok ds') : weedleParse (s ++ s') = .ok (ds ++ ds') := by
  rw [document_iff] at h h' ⊢
  rcases h with ⟨rfl, rfl⟩ | ⟨hd, t, ls, b, rfl, h1, h2, h3⟩
  · exact h'
  · rcases h' with ⟨rfl, rfl⟩ | ⟨hd', t', ls', b', rfl, h1', h2', h3'⟩
    · simpa using .inr ⟨hd, t, ls, b, rfl, h1, h2, h3⟩
    · obtain ⟨a, rfl⟩ := semi_definitions hd ls h2
      refine .inr ⟨by simp [hd], t, _, _, List.append_assoc _ _ _, h1, definitions_append h2 h2', ?_⟩
      exact textThen_nil.2 (text_append h3 h1' (textThen_nil.1 h3')).2

example : weedleParse (c!"A includes B;//\n" ++ c!" typedef long c;") =
    .ok ([.includesStatement none c!"A" c!"B"] ++ [.typedef none (.mk none (.single (.nonAny (.integer (.long false) false)))) c!"c"]) :=
  C23_concatenation _ _ _ _ rfl rfl

/-- Conversely a document can be split between any two of its definitions. -/
theorem C23_split (s : Str) (ds ds' : List Definition) (h : weedleParse s = .ok (ds ++ ds')) :
    ∃ s1 s2, s = s1 ++ s2 ∧ weedleParse s1 = .ok ds ∧ weedleParse s2 = .ok ds' := by
  by_cases hd : ds = []
  · subst hd
    exact ⟨[], s, rfl, rfl, h⟩
  by_cases hd' : ds' = []
  · subst hd'
    exact ⟨s, [], by simp, by simpa using h, rfl⟩
  rw [document_iff] at h
  rcases h with ⟨h, -⟩ | ⟨-, t, ls, b, rfl, h1, h2, h3⟩
  · simp [hd] at h
  · obtain ⟨a, a', rfl, h4, h5⟩ := definitions_split h2
    obtain ⟨b', h6, h7⟩ := textThen_split (textThen_nil.1 h3)
    obtain ⟨b1, rfl, h8⟩ := textThen_text h6
    exact ⟨t ++ b1, b', by simp, document_iff.2 (.inr ⟨hd, t, a, b1, rfl, h1, h4, h8⟩),
      document_iff.2 (.inr ⟨hd', [], a', b', rfl, .nil, h5, textThen_nil.2 h7⟩)⟩

example : ∃ s1 s2, c!"A includes B;//\n C includes D;" = s1 ++ s2 ∧ weedleParse s1 = .ok [.includesStatement none c!"A" c!"B"] ∧
    weedleParse s2 = .ok [.includesStatement none c!"C" c!"D"] :=
  C23_split _ [_] [_] rfl

/-! ## C33: definitions and members end with a semicolon -/

theorem C33_definition (s r : Str) (d : Definition) (h : G.definition.parse s = .ok r d) :
    ∃ p t, s = p ++ c!";" ++ t ++ r ∧ Trivia t := spells_semi (semi_definition d) (definition_iff.1 h).1

example : ∃ p t, c!"a includes b ; /**/ c" = p ++ c!";" ++ t ++ c!"c" ∧ Trivia t := C33_definition _ _ _ rfl

theorem C33_interfaceMember (s r : Str) (m : InterfaceMember) (h : G.interfaceMember.parse s = .ok r m) :
    ∃ p t, s = p ++ c!";" ++ t ++ r ∧ Trivia t :=
  spells_semi (closed_interfaceMember m).semi (interfaceMember_iff.1 h).1

example : ∃ p t, c!"stringifier ; }" = p ++ c!";" ++ t ++ c!"}" ∧ Trivia t := C33_interfaceMember _ _ _ rfl

theorem C33_mixinMember (s r : Str) (m : MixinMember) (h : G.mixinMember.parse s = .ok r m) :
    ∃ p t, s = p ++ c!";" ++ t ++ r ∧ Trivia t :=
  spells_semi (closed_mixinMember m).semi (mixinMember_iff.1 h).1

example : ∃ p t, c!"const long a = 1; }" = p ++ c!";" ++ t ++ c!"}" ∧ Trivia t := C33_mixinMember _ _ _ rfl

theorem C33_namespaceMember (s r : Str) (m : NamespaceMember) (h : G.namespaceMember.parse s = .ok r m) :
    ∃ p t, s = p ++ c!";" ++ t ++ r ∧ Trivia t :=
  spells_semi (closed_namespaceMember m).semi (namespaceMember_iff.1 h).1

example : ∃ p t, c!"void f(); }" = p ++ c!";" ++ t ++ c!"}" ∧ Trivia t := C33_namespaceMember _ _ _ rfl

theorem C33_dictionaryMember (s r : Str) (m : DictionaryMember) (h : G.dictionaryMember.parse s = .ok r m) :
    ∃ p t, s = p ++ c!";" ++ t ++ r ∧ Trivia t :=
  spells_semi (closed_dictionaryMember m).semi (dictionaryMember_iff.1 h).1

example : ∃ p t, c!"long a = 1; }" = p ++ c!";" ++ t ++ c!"}" ∧ Trivia t := C33_dictionaryMember _ _ _ rfl

/-- A non-empty document ends with a semicolon and trivia. -/
theorem C33_document (s : Str) (ds : List Definition) (h : weedleParse s = .ok ds) (hs : s ≠ []) :
    ∃ p t, s = p ++ c!";" ++ t ∧ Trivia t := by
  rcases document_iff.1 h with ⟨-, rfl⟩ | ⟨hd, t, ls, b, rfl, h1, h2, h3⟩
  · exact absurd rfl hs
  · obtain ⟨p, t', h4, h5⟩ := spells_semi (r := []) (semi_definitions hd) ⟨t, ls, b, rfl, h1, h2, textThen_nil.1 h3⟩
    exact ⟨p, t', by simpa using h4, h5⟩

example : G.mixinMember.parse c!"stringifier ; x" = .ok c!"x" (.stringifier ⟨none⟩) := by rfl
example : ∃ d, G.dictionaryMember.parse c!"long a = 1 ;/**/ x" = .ok c!"x" d := ⟨_, rfl⟩
example : ∃ d, G.interfaceMember.parse c!"constructor() ;/**/ x" = .ok c!"x" d := ⟨_, rfl⟩
example : ∃ d, G.namespaceMember.parse c!"long f() ;/**/ x" = .ok c!"x" d := ⟨_, rfl⟩
example : ∃ d, G.definition.parse c!"A includes B ;/**/ x" = .ok c!"x" d := ⟨_, rfl⟩

/-! ## C05: an unterminated trailing line comment -/

/-- The definitions are recognised, but the comment remains and `weedle::parse` panics. -/
theorem C05_trailing_comment (s x : Str) (ds : List Definition) (h : weedleParse s = .ok ds) (hs : s ≠ [])
    (hx : '\n' ∉ x) :
    G.definitions.parse (s ++ (c!"//" ++ x)) = .ok (c!"//" ++ x) ds ∧
      weedleParse (s ++ (c!"//" ++ x)) = .panic := by
  have key : G.definitions.parse (s ++ (c!"//" ++ x)) = .ok (c!"//" ++ x) ds := by
    rcases document_iff.1 h with ⟨-, rfl⟩ | ⟨hd, t, ls, b, rfl, h1, h2, h3⟩
    · exact absurd rfl hs
    · obtain ⟨a, rfl⟩ := semi_definitions hd ls h2
      have h4 := (text_append h3 .nil (.nil (r := c!"//" ++ x))).2
      rw [List.append_nil] at h4
      have h5 := spelled_reads h1 h4 (by simp) (allGood_definitions _ _ h2) (slashes_noTrivia hx)
      rw [List.append_assoc]
      exact ok_definitions exact_char ⟨_, h2, h5⟩ (slash_dull (slashes_noTrivia hx))
  refine ⟨key, ?_⟩
  unfold weedleParse
  rw [key]
  rfl

example : weedleParse c!"A includes B; // end" = .panic := by rfl
example : weedleParse c!"A includes B; // end\n" = .ok [.includesStatement none c!"A" c!"B"] := by rfl

end Verif.Properties
