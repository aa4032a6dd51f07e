import Verif.Proof.Wholes

/-!
# C47: every type that can be parsed accepts exactly its spellings
-/

namespace Verif.Properties
open Nom Spec

/-- The types whose text can be continued, with the spellings of their values. -/
inductive PartOf : {α : Type} → G α → (α → Lang) → Prop where
  | kw (k : Kw) : PartOf (G.kw k) (fun _ => tok k.text)
  | punct (p : Punct) (h : p ≠ .dot ∧ p ≠ .minus ∧ p ≠ .semiColon) : PartOf (G.punct p) (fun _ => tok p.text)
  | ident : PartOf G.ident name
  | stringLit : PartOf G.stringLit string
  | decLit : PartOf (.leaf .dec) (literal Regex.dec)
  | hexLit : PartOf (.leaf .hex) (literal Regex.hex)
  | octLit : PartOf (.leaf .oct) (literal Regex.oct)
  | floatValueLit : PartOf (.leaf .float) (literal Regex.float)
  | integerLit : PartOf G.integerLit integerLit
  | floatLit : PartOf G.floatLit floatLit
  | booleanLit : PartOf G.booleanLit booleanLit
  | emptyArrayLit : PartOf G.emptyArrayLit (fun _ => tok c!"[" ⨾ tok c!"]")
  | emptyDictionaryLit : PartOf G.emptyDictionaryLit (fun _ => tok c!"{" ⨾ tok c!"}")
  | defaultValue : PartOf G.defaultValue defaultValue
  | constValue : PartOf G.constValue constValue
  | default : PartOf G.default defaultPart
  | longLongType : PartOf G.longLongType (only (integerKind · = .longLong) integerType)
  | longType : PartOf G.longType (only (integerKind · = .long) integerType)
  | shortType : PartOf G.shortType (only (integerKind · = .short) integerType)
  | integerType : PartOf G.integerType integerType
  | floatType : PartOf G.floatType (only (floatKind · = .float) floatingPointType)
  | doubleType : PartOf G.doubleType (only (floatKind · = .double) floatingPointType)
  | floatingPointType : PartOf G.floatingPointType floatingPointType
  | type : PartOf G.type type
  | singleType : PartOf G.singleType singleType
  | nonAnyType : PartOf G.nonAnyType nonAnyType
  | promiseType : PartOf G.promiseType (only (∃ r, · = .promise r) nonAnyType)
  | sequenceType : PartOf G.sequenceType sequencePart
  | frozenArrayType : PartOf G.frozenArrayType frozenArrayPart
  | recordType : PartOf G.recordType recordPart
  | recordKeyType : PartOf G.recordKeyType recordKeyType
  | unionType : PartOf G.unionType unionPart
  | unionMemberType : PartOf G.unionMemberType unionMember
  | attributedNonAnyType : PartOf G.attributedNonAnyType (only (∃ as t, · = .single as t) unionMember)
  | constType : PartOf G.constType constType
  | returnType : PartOf G.returnType returnType
  | attributedType : PartOf G.attributedType attributedType
  | identifierOrString : PartOf G.identifierOrString identifierOrString
  | extAttrArgList : PartOf G.extAttrArgList (only (attrKind · = .argList) extAttr)
  | extAttrNamedArgList : PartOf G.extAttrNamedArgList (only (attrKind · = .namedArgList) extAttr)
  | extAttrIdentList : PartOf G.extAttrIdentList (only (attrKind · = .identList) extAttr)
  | extAttrIdent : PartOf G.extAttrIdent (only (attrKind · = .ident) extAttr)
  | extAttrWildcard : PartOf G.extAttrWildcard (only (attrKind · = .wildcard) extAttr)
  | extAttrNoArgs : PartOf G.extAttrNoArgs (only (attrKind · = .noArgs) extAttr)
  | extAttr : PartOf G.extAttr extAttr
  | extAttrList : PartOf G.extAttrList attributeList
  | singleArgument : PartOf G.singleArgument (only (argumentArity · = .one) argument)
  | variadicArgument : PartOf G.variadicArgument (only (argumentArity · = .several) argument)
  | argument : PartOf G.argument argument
  | argumentList : PartOf (G.parenthesized G.argumentList) argumentList
  | inheritance : PartOf G.inheritance inheritancePart
  | stringifierOrInheritOrStatic : PartOf G.stringifierOrInheritOrStatic modifierWord
  | stringifierOrStatic : PartOf G.stringifierOrStatic staticWord
  | special : PartOf G.special specialWord

/-- The types whose text ends with a semicolon. -/
inductive WholeOf : {α : Type} → G α → (α → Lang) → Prop where
  | semiColon : WholeOf (G.punct .semiColon) (fun _ => tok c!";")
  | constMember : WholeOf G.constMember constMember
  | attributeInterfaceMember : WholeOf G.attributeInterfaceMember attributeInterfaceMember
  | constructorInterfaceMember : WholeOf G.constructorInterfaceMember constructorInterfaceMember
  | operationInterfaceMember : WholeOf G.operationInterfaceMember operationAlone
  | singleTypedIterable : WholeOf G.singleTypedIterable (only (iterableArity · = .one) iterableInterfaceMember)
  | doubleTypedIterable : WholeOf G.doubleTypedIterable (only (iterableArity · = .several) iterableInterfaceMember)
  | iterable : WholeOf G.iterableInterfaceMember iterableInterfaceMember
  | singleTypedAsyncIterable :
      WholeOf G.singleTypedAsyncIterable (only (asyncIterableArity · = .one) asyncIterableInterfaceMember)
  | doubleTypedAsyncIterable :
      WholeOf G.doubleTypedAsyncIterable (only (asyncIterableArity · = .several) asyncIterableInterfaceMember)
  | asyncIterable : WholeOf G.asyncIterableInterfaceMember asyncIterableInterfaceMember
  | maplike : WholeOf G.maplikeInterfaceMember maplikeInterfaceMember
  | setlike : WholeOf G.setlikeInterfaceMember setlikeInterfaceMember
  | stringifier : WholeOf G.stringifierMember stringifierMember
  | interfaceMember : WholeOf G.interfaceMember interfaceMember
  | operationMixinMember : WholeOf G.operationMixinMember operationMixinMember
  | attributeMixinMember : WholeOf G.attributeMixinMember attributeMixinMember
  | mixinMember : WholeOf G.mixinMember mixinMember
  | operationNamespaceMember : WholeOf G.operationNamespaceMember operationNamespaceMember
  | attributeNamespaceMember : WholeOf G.attributeNamespaceMember attributeNamespaceMember
  | namespaceMember : WholeOf G.namespaceMember namespaceMember
  | dictionaryMember : WholeOf G.dictionaryMember dictionaryMember
  | callback : WholeOf G.callbackDefinition (only (kind · = .callback) definition)
  | callbackInterface : WholeOf G.callbackInterfaceDefinition (only (kind · = .callbackInterface) definition)
  | interface : WholeOf G.interfaceDefinition (only (kind · = .interface) definition)
  | interfaceMixin : WholeOf G.interfaceMixinDefinition (only (kind · = .interfaceMixin) definition)
  | namespace : WholeOf G.namespaceDefinition (only (kind · = .namespace) definition)
  | dictionary : WholeOf G.dictionaryDefinition (only (kind · = .dictionary) definition)
  | partialInterface : WholeOf G.partialInterfaceDefinition (only (kind · = .partialInterface) definition)
  | partialInterfaceMixin :
      WholeOf G.partialInterfaceMixinDefinition (only (kind · = .partialInterfaceMixin) definition)
  | partialDictionary : WholeOf G.partialDictionaryDefinition (only (kind · = .partialDictionary) definition)
  | partialNamespace : WholeOf G.partialNamespaceDefinition (only (kind · = .partialNamespace) definition)
  | enum : WholeOf G.enumDefinition (only (kind · = .enum) definition)
  | typedef : WholeOf G.typedefDefinition (only (kind · = .typedef) definition)
  | includes : WholeOf G.includesStatementDefinition includesAlone
  | implements : WholeOf G.implementsDefinition implementsAlone
  | definition : WholeOf G.definition definition

theorem PartOf.part {α : Type} {g : G α} {L : α → Lang} (h : PartOf g L) : Part g L := by
  cases h with
  | kw k => exact part_kw k
  | punct p h => exact part_punct p h
  | ident => exact part_ident
  | stringLit => exact part_stringLit
  | decLit => exact part_dec
  | hexLit => exact part_hex
  | octLit => exact part_oct
  | floatValueLit => exact part_float
  | integerLit => exact part_integerLit
  | floatLit => exact part_floatLit
  | booleanLit => exact part_booleanLit
  | emptyArrayLit => exact part_emptyArrayLit
  | emptyDictionaryLit => exact part_emptyDictionaryLit
  | defaultValue => exact part_defaultValue
  | constValue => exact part_constValue
  | default => exact part_default
  | longLongType => exact part_longLongType
  | longType => exact part_longType
  | shortType => exact part_shortType
  | integerType => exact part_integerType
  | floatType => exact part_floatType
  | doubleType => exact part_doubleType
  | floatingPointType => exact part_floatingPointType
  | type => exact part_type
  | singleType => exact part_singleType
  | nonAnyType => exact part_nonAnyType
  | promiseType => exact part_promiseType
  | sequenceType => exact part_sequenceType
  | frozenArrayType => exact part_frozenArrayType
  | recordType => exact part_recordType
  | recordKeyType => exact part_recordKeyType
  | unionType => exact part_unionType
  | unionMemberType => exact part_unionMemberType
  | attributedNonAnyType => exact part_attributedNonAnyType
  | constType => exact part_constType
  | returnType => exact part_returnType
  | attributedType => exact part_attributedType
  | identifierOrString => exact part_identifierOrString
  | extAttrArgList => exact part_extAttrArgList
  | extAttrNamedArgList => exact part_extAttrNamedArgList
  | extAttrIdentList => exact part_extAttrIdentList
  | extAttrIdent => exact part_extAttrIdent
  | extAttrWildcard => exact part_extAttrWildcard
  | extAttrNoArgs => exact part_extAttrNoArgs
  | extAttr => exact part_extAttr
  | extAttrList => exact part_extAttrList
  | singleArgument => exact part_singleArgument
  | variadicArgument => exact part_variadicArgument
  | argument => exact part_argument
  | argumentList => exact part_argumentList
  | inheritance => exact part_inheritance
  | stringifierOrInheritOrStatic => exact part_modifier
  | stringifierOrStatic => exact part_static
  | special => exact part_special

theorem WholeOf.whole {α : Type} {g : G α} {L : α → Lang} (h : WholeOf g L) : Whole g L := by
  cases h with
  | semiColon => exact whole_semiColon
  | constMember => exact whole_const
  | attributeInterfaceMember => exact whole_attributeInterface
  | constructorInterfaceMember => exact whole_constructor
  | operationInterfaceMember => exact whole_operationInterface
  | singleTypedIterable => exact whole_singleTypedIterable
  | doubleTypedIterable => exact whole_doubleTypedIterable
  | iterable => exact whole_iterable
  | singleTypedAsyncIterable => exact whole_singleTypedAsyncIterable
  | doubleTypedAsyncIterable => exact whole_doubleTypedAsyncIterable
  | asyncIterable => exact whole_asyncIterable
  | maplike => exact whole_maplike
  | setlike => exact whole_setlike
  | stringifier => exact whole_stringifier
  | interfaceMember => exact whole_interfaceMember
  | operationMixinMember => exact whole_operationMixin
  | attributeMixinMember => exact whole_attributeMixin
  | mixinMember => exact whole_mixinMember
  | operationNamespaceMember => exact whole_operationNamespace
  | attributeNamespaceMember => exact whole_attributeNamespace
  | namespaceMember => exact whole_namespaceMember
  | dictionaryMember => exact whole_dictionaryMember
  | callback => exact whole_callback
  | callbackInterface => exact whole_callbackInterface
  | interface => exact whole_interface
  | interfaceMixin => exact whole_interfaceMixin
  | «namespace» => exact whole_namespace
  | dictionary => exact whole_dictionary
  | partialInterface => exact whole_partialInterface
  | partialInterfaceMixin => exact whole_partialInterfaceMixin
  | partialDictionary => exact whole_partialDictionary
  | partialNamespace => exact whole_partialNamespace
  | enum => exact whole_enum
  | typedef => exact whole_typedef
  | includes => exact whole_includes
  | implements => exact whole_implements
  | definition => exact whole_definition

/-- In front of a closing bracket, `,` or `;`, and at the end of the text: `T::parse` returns `a`
exactly if the text spells `a`. -/
theorem C47_part {α : Type} {g : G α} {L : α → Lang} (h : PartOf g L) (s r : Str) (a : α) (hr : Ended r) :
    g.parse s = .ok r a ↔ Spells L a s r := h.part.iff hr

example : Spells type (.single .any) c!" any/**/," c!"," := (C47_part .type _ _ _ (.inr ⟨_, _, rfl, by decide⟩)).1 rfl

example : Spells recordPart (.dom, .single .any) c!"record<DOMString ,any>" [] :=
  (C47_part .recordType _ _ _ (.inl rfl)).1 rfl

/-- What ends with a semicolon is recognised whatever follows. -/
theorem C47_whole {α : Type} {g : G α} {L : α → Lang} (h : WholeOf g L) (s r : Str) (a : α) :
    g.parse s = .ok r a ↔ Spells L a s r ∧ NoTrivia r := by
  rw [h.whole.iff, noTrivia_iff]

example : Spells includesAlone (.includesStatement none c!"typedef" c!"x") c!"typedef includes _x; y" c!"y" :=
  ((C47_whole .includes _ _ _).1 rfl).1

/-- A whole text. -/
theorem C47_text {α : Type} {g : G α} {L : α → Lang} (h : PartOf g L ∨ WholeOf g L) (s : Str) (a : α) :
    g.parse s = .ok [] a ↔ ∃ t ls b, s = t ++ b ∧ Trivia t ∧ L a ls ∧ Text ls b := by
  have hn : NoTrivia [] := fun t r h _ => (List.append_eq_nil_iff.1 h.symm).1
  have : g.parse s = .ok [] a ↔ Spells L a s [] := by
    rcases h with h | h
    · exact C47_part h s [] a (.inl rfl)
    · rw [C47_whole h]
      exact and_iff_left hn
  rw [this]
  simp only [Spells, textThen_nil]

example : ∃ t ls b, c!"getter /**/" = t ++ b ∧ Trivia t ∧ specialWord .getter ls ∧ Text ls b :=
  (C47_text (.inl .special) _ _).1 rfl

example : ¬ ∃ t ls b, c!"any ?" = t ++ b ∧ Trivia t ∧ type (.single .any) ls ∧ Text ls b :=
  fun h => nomatch (C47_text (.inl .type) _ _).2 h

/-- No text spells two values. -/
theorem C47_unambiguous {α : Type} {g : G α} {L : α → Lang} (h : PartOf g L ∨ WholeOf g L) {s t t' b b' : Str}
    {ls ls' : List Str} {a a' : α} (h1 : s = t ++ b) (h2 : Trivia t) (h3 : L a ls) (h4 : Text ls b)
    (h1' : s = t' ++ b') (h2' : Trivia t') (h3' : L a' ls') (h4' : Text ls' b') : a = a' := by
  have e := (C47_text h s a).2 ⟨t, ls, b, h1, h2, h3, h4⟩
  rw [(C47_text h s a').2 ⟨t', ls', b', h1', h2', h3', h4'⟩] at e
  exact ((Res.ok.injEq ..).mp e).2.symm

example (t : Ty) (ls : List Str) (h : type t ls) (h' : Text ls c!"long long") : t = .single (.nonAny (.integer (.longLong false) false)) := by
  obtain ⟨t', ls', b', h1, h2, h3, h4⟩ := (C47_text (.inl .type) c!"long long" (.single (.nonAny (.integer (.longLong false) false)))).1 rfl
  exact C47_unambiguous (.inl .type) (t := []) rfl .nil h h' h1 h2 h3 h4


end Verif.Properties
