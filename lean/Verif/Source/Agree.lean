import Verif.Source.ConvPart

/-! # All types

The definitions serve the proof only, they model no code. -/

namespace Verif.Source
open Nom

theorem TypeOf.guarded {α : Type} {T : RTy} {g : G α} {v : α → Val} (h : TypeOf T g v) : ∃ b, Guarded true g b := by
  induction h with
  | option _ ih => exact ih.elim fun _ h => ⟨_, .opt h⟩
  | box _ ih => exact ih
  | vec _ ih => exact ih.elim fun _ h => ⟨_, .many0 h⟩
  | pair _ _ ih ih' =>
    obtain ⟨b, h⟩ := ih
    obtain ⟨b', h'⟩ := ih'
    exact ⟨_, .bindF h.toFalse fun _ => .bindF h'.toFalse fun _ => .ret⟩
  | triple _ _ _ ih ih' ih'' =>
    obtain ⟨b, h⟩ := ih
    obtain ⟨b', h'⟩ := ih'
    obtain ⟨b'', h''⟩ := ih''
    exact ⟨_, .bindF h.toFalse fun _ => .bindF h'.toFalse fun _ => .bindF h''.toFalse fun _ => .ret⟩
  | parenthesized _ ih => exact ih.elim fun _ h => ⟨_, inferInstance⟩
  | bracketed _ ih => exact ih.elim fun _ h => ⟨_, inferInstance⟩
  | braced _ ih => exact ih.elim fun _ h => ⟨_, inferInstance⟩
  | generics _ ih => exact ih.elim fun _ h => ⟨_, inferInstance⟩
  | punctuatedPunct p _ ih => exact ih.elim fun _ h => ⟨_, .separatedList h (guarded_punct p)⟩
  | punctuatedKw k _ ih => exact ih.elim fun _ h => ⟨_, .separatedList h (guarded_kw k)⟩
  | punctuatedNonEmptyPunct p _ ih => exact ih.elim fun _ h => ⟨_, inferInstance⟩
  | punctuatedNonEmptyKw k _ ih => exact ih.elim fun _ h => ⟨_, inferInstance⟩
  | mayBeNull _ ih =>
    obtain ⟨b, h⟩ := ih
    exact ⟨_, .bindF h.toFalse fun _ => .bindF (st' := false) inferInstance fun _ => .ret⟩
  | _ => exact ⟨_, inferInstance⟩

theorem TypeOf.agree {α : Type} {T : RTy} {g : G α} {v : α → Val} (h : TypeOf T g v) : ∀ s, C T g v s := by
  induction h with
  | punct p => exact fun s => c_punct p s
  | kw k => exact fun s => c_kw k s
  | option _ ih => exact fun s => c_opt (ih s)
  | box _ ih => exact fun s => c_box (ih s)
  | vec h ih => exact fun s => h.guarded.elim fun _ _ => c_vec fun r _ => ih r
  | pair h h' ih ih' =>
    obtain ⟨_, _⟩ := h.guarded
    obtain ⟨_, _⟩ := h'.guarded
    exact fun s => g_pair (ih s) (fun r _ => ih' r) fun _ _ => rfl
  | triple h h' h'' ih ih' ih'' =>
    obtain ⟨_, _⟩ := h.guarded
    obtain ⟨_, _⟩ := h'.guarded
    obtain ⟨_, _⟩ := h''.guarded
    exact fun s => g_triple (ih s) (fun r _ => ih' r) (fun r _ => ih'' r) fun _ _ _ => rfl
  | parenthesized h ih => exact fun s => h.guarded.elim fun _ _ => c_paren fun r _ => ih r
  | bracketed h ih => exact fun s => h.guarded.elim fun _ _ => c_bracket fun r _ => ih r
  | braced h ih => exact fun s => h.guarded.elim fun _ _ => c_brace fun r _ => ih r
  | generics h ih => exact fun s => h.guarded.elim fun _ _ => c_generics fun r _ => ih r
  | punctuatedPunct p h ih =>
    exact fun s => h.guarded.elim fun _ _ => c_punctuated (fun r _ => ih r) fun r _ => c_punct p r
  | punctuatedKw k h ih => exact fun s => h.guarded.elim fun _ _ => c_punctuated (fun r _ => ih r) fun r _ => c_kw k r
  | punctuatedNonEmptyPunct p h ih =>
    exact fun s => h.guarded.elim fun _ _ => c_punctuatedNonEmpty (fun r _ => ih r) fun r => c_punct p r
  | punctuatedNonEmptyKw k h ih =>
    exact fun s => h.guarded.elim fun _ _ => c_punctuatedNonEmpty (fun r _ => ih r) fun r => c_kw k r
  | mayBeNull h ih => exact fun s => h.guarded.elim fun _ _ => c_null (V := id) (ih s) fun _ _ => rfl
  | argumentList => exact fun s => by simpa only [argumentVals_eq] using c_argumentList (s := s) fun r _ => rec_all r
  | argument => exact fun s => c_argument (shorter_all s)
  | singleArgument => exact fun s => c_oneArgument s
  | variadicArgument => exact fun s => c_variadicArgument s
  | extendedAttributeList => exact fun s => by simpa only [extAttrVals_eq] using c_extAttrList (shorter_all s)
  | identifierList => exact fun s => c_identifierList s
  | extendedAttribute => exact fun s => c_extAttr (shorter_all s)
  | extendedAttributeArgList => exact fun s => c_extendedAttributeArgList s
  | extendedAttributeNamedArgList => exact fun s => c_extendedAttributeNamedArgList s
  | extendedAttributeIdentList => exact fun s => c_extendedAttributeIdentList s
  | extendedAttributeIdent => exact fun s => c_extendedAttributeIdent s
  | extendedAttributeWildCard => exact fun s => c_extendedAttributeWildCard s
  | extendedAttributeNoArgs => exact fun s => c_extendedAttributeNoArgs s
  | identifierOrString => exact fun s => c_identifierOrString s
  | identifier => exact fun s => c_ident s
  | default => exact fun s => c_default s
  | dictionaryMembers => exact fun s => c_dictionaryMembers s
  | dictionaryMember => exact fun s => c_dictionaryMember s
  | interfaceMembers => exact fun s => c_interfaceMembers s
  | inheritance => exact fun s => c_inheritance s
  | interfaceMember => exact fun s => c_interfaceMember s
  | constMember => exact fun s => c_constMember s
  | attributeInterfaceMember => exact fun s => c_attributeInterfaceMember s
  | constructorInterfaceMember => exact fun s => c_constructorInterfaceMember s
  | operationInterfaceMember => exact fun s => c_operationInterfaceMember s
  | iterableInterfaceMember => exact fun s => c_iterableInterfaceMember s
  | singleTypedIterable => exact fun s => c_singleTypedIterable s
  | doubleTypedIterable => exact fun s => c_doubleTypedIterable s
  | asyncIterableInterfaceMember => exact fun s => c_asyncIterableInterfaceMember s
  | singleTypedAsyncIterable => exact fun s => c_singleTypedAsyncIterable s
  | doubleTypedAsyncIterable => exact fun s => c_doubleTypedAsyncIterable s
  | maplikeInterfaceMember => exact fun s => c_maplikeInterfaceMember s
  | setlikeInterfaceMember => exact fun s => c_setlikeInterfaceMember s
  | stringifierMember => exact fun s => c_stringifierMember s
  | special => exact fun s => c_special s
  | stringifierOrInheritOrStatic => exact fun s => c_stringifierOrInheritOrStatic s
  | stringifierOrStatic => exact fun s => c_stringifierOrStatic s
  | definitions => exact fun s => c_definitions s
  | definition => exact fun s => c_definition s
  | callbackDefinition => exact fun s => c_callbackDefinition s
  | callbackInterfaceDefinition => exact fun s => c_callbackInterfaceDefinition s
  | interfaceDefinition => exact fun s => c_interfaceDefinition s
  | interfaceMixinDefinition => exact fun s => c_interfaceMixinDefinition s
  | namespaceDefinition => exact fun s => c_namespaceDefinition s
  | dictionaryDefinition => exact fun s => c_dictionaryDefinition s
  | partialInterfaceDefinition => exact fun s => c_partialInterfaceDefinition s
  | partialInterfaceMixinDefinition => exact fun s => c_partialInterfaceMixinDefinition s
  | partialDictionaryDefinition => exact fun s => c_partialDictionaryDefinition s
  | partialNamespaceDefinition => exact fun s => c_partialNamespaceDefinition s
  | enumDefinition => exact fun s => c_enumDefinition s
  | typedefDefinition => exact fun s => c_typedefDefinition s
  | includesStatementDefinition => exact fun s => c_includesStatementDefinition s
  | implementsDefinition => exact fun s => c_implementsDefinition s
  | enumValueList => exact fun s => c_enumValueList s
  | integerLit => exact fun s => c_integerLit s
  | decLit => exact fun s => c_dec s
  | hexLit => exact fun s => c_hex s
  | octLit => exact fun s => c_oct s
  | stringLit => exact fun s => c_string s
  | defaultValue => exact fun s => c_defaultValue s
  | emptyArrayLit => exact fun s => c_emptyArrayLit s
  | emptyDictionaryLit => exact fun s => c_emptyDictionaryLit s
  | constValue => exact fun s => c_constValue s
  | booleanLit => exact fun s => c_booleanLit s
  | floatLit => exact fun s => c_floatLit s
  | floatValueLit => exact fun s => c_float s
  | mixinMembers => exact fun s => c_mixinMembers s
  | mixinMember => exact fun s => c_mixinMember s
  | operationMixinMember => exact fun s => c_operationMixinMember s
  | attributeMixinMember => exact fun s => c_attributeMixinMember s
  | namespaceMembers => exact fun s => c_namespaceMembers s
  | namespaceMember => exact fun s => c_namespaceMember s
  | constNamespaceMember => exact fun s => c_constNamespaceMember s
  | operationNamespaceMember => exact fun s => c_operationNamespaceMember s
  | attributeNamespaceMember => exact fun s => c_attributeNamespaceMember s
  | unionType => exact fun s => by simpa only [unionMemberVals_eq] using c_unionType (shorter_all s)
  | type => exact fun s => c_type (shorter_all s)
  | singleType => exact fun s => c_singleType (shorter_all s)
  | nonAnyType => exact fun s => c_nonAnyType (shorter_all s)
  | sequenceType => exact fun s => c_sequenceType (shorter_all s)
  | frozenArrayType => exact fun s => c_frozenArrayType (shorter_all s)
  | promiseType => exact fun s => c_promise s
  | integerType => exact fun s => c_integerType s
  | longLongType => exact fun s => c_longLongType s
  | longType => exact fun s => c_longType s
  | shortType => exact fun s => c_shortType s
  | floatingPointType => exact fun s => c_floatingPointType s
  | floatType => exact fun s => c_floatType s
  | doubleType => exact fun s => c_doubleType s
  | recordType => exact fun s => c_recordType (shorter_all s)
  | recordKeyType => exact fun s => c_recordKeyType (rec_all s)
  | unionMemberType => exact fun s => c_unionMemberType (shorter_all s)
  | constType => exact fun s => c_constType s
  | returnType => exact fun s => c_returnType (shorter_all s)
  | attributedType => exact fun s => c_attributedType (shorter_all s)
  | attributedNonAnyType => exact fun s => c_attributedNonAnyType s

theorem readSource_eq : readSource = some decls := by
  simp [readSource, readTerms_eq, read_argument, read_attribute, read_common, read_dictionary, read_interface, read_lib,
    read_literal, read_mixin, read_namespace, read_term, read_types, read_whitespace, decls]

def simpleNames : List Str := [c!"ArgumentList", c!"Argument", c!"SingleArgument", c!"VariadicArgument", c!"ExtendedAttributeList", c!"IdentifierList", c!"ExtendedAttribute", c!"ExtendedAttributeArgList", c!"ExtendedAttributeNamedArgList", c!"ExtendedAttributeIdentList", c!"ExtendedAttributeIdent", c!"ExtendedAttributeWildCard", c!"ExtendedAttributeNoArgs", c!"IdentifierOrString", c!"Identifier", c!"Default", c!"DictionaryMembers", c!"DictionaryMember", c!"InterfaceMembers", c!"Inheritance", c!"InterfaceMember", c!"ConstMember", c!"AttributeInterfaceMember", c!"ConstructorInterfaceMember", c!"OperationInterfaceMember", c!"IterableInterfaceMember", c!"SingleTypedIterable", c!"DoubleTypedIterable", c!"AsyncIterableInterfaceMember", c!"SingleTypedAsyncIterable", c!"DoubleTypedAsyncIterable", c!"MaplikeInterfaceMember", c!"SetlikeInterfaceMember", c!"StringifierMember", c!"Special", c!"StringifierOrInheritOrStatic", c!"StringifierOrStatic", c!"Definitions", c!"Definition", c!"CallbackDefinition", c!"CallbackInterfaceDefinition", c!"InterfaceDefinition", c!"InterfaceMixinDefinition", c!"NamespaceDefinition", c!"DictionaryDefinition", c!"PartialInterfaceDefinition", c!"PartialInterfaceMixinDefinition", c!"PartialDictionaryDefinition", c!"PartialNamespaceDefinition", c!"EnumDefinition", c!"TypedefDefinition", c!"IncludesStatementDefinition", c!"ImplementsDefinition", c!"EnumValueList", c!"IntegerLit", c!"DecLit", c!"HexLit", c!"OctLit", c!"StringLit", c!"DefaultValue", c!"EmptyArrayLit", c!"EmptyDictionaryLit", c!"ConstValue", c!"BooleanLit", c!"FloatLit", c!"FloatValueLit", c!"MixinMembers", c!"MixinMember", c!"OperationMixinMember", c!"AttributeMixinMember", c!"NamespaceMembers", c!"NamespaceMember", c!"ConstNamespaceMember", c!"OperationNamespaceMember", c!"AttributeNamespaceMember", c!"UnionType", c!"Type", c!"SingleType", c!"NonAnyType", c!"SequenceType", c!"FrozenArrayType", c!"PromiseType", c!"IntegerType", c!"LongLongType", c!"LongType", c!"ShortType", c!"FloatingPointType", c!"FloatType", c!"DoubleType", c!"RecordType", c!"RecordKeyType", c!"UnionMemberType", c!"ConstType", c!"ReturnType", c!"AttributedType", c!"AttributedNonAnyType"]

def puncts : List Punct := [.openParen, .closeParen, .openBracket, .closeBracket, .openBrace, .closeBrace, .comma, .minus, .dot, .ellipsis, .colon, .semiColon, .lessThan, .assign, .greaterThan, .qMark, .asterisk]

def kws : List Kw := [.or, .optional, .async, .attribute, .callback, .const, .deleter, .dictionary, .enum, .getter, .includes, .inherit, .interface, .iterable, .maplike, .namespace, .partial, .required, .setlike, .setter, .static, .stringifier, .typedef, .unrestricted, .symbol, .negInfinity, .byteString, .domString, .frozenArray, .infinity, .nan, .usvString, .any, .boolean, .byte, .double, .false, .float, .long, .null, .object, .octet, .sequence, .short, .true, .unsigned, .undefined, .record, .arrayBuffer, .dataView, .int8Array, .int16Array, .int32Array, .uint8Array, .uint16Array, .uint32Array, .uint8ClampedArray, .float32Array, .float64Array, .arrayBufferView, .bufferSource, .promise, .error, .readOnly, .mixin, .implements, .legacyCaller, .constructor]

theorem simple_names : ∀ d ∈ decls, d.params.length = 0 → d.name ≠ c!"sp" →
    d.name ∈ simpleNames ∨ d.name ∈ puncts.map punctType ∨ d.name ∈ kws.map kwType := by decide +kernel

theorem names1 : ∀ d ∈ decls, d.params.length = 1 → d.name ∈ [c!"Option", c!"Box", c!"Vec", c!"Parenthesized",
    c!"Bracketed", c!"Braced", c!"Generics", c!"MayBeNull"] := by decide +kernel

theorem names2 : ∀ d ∈ decls, d.params.length = 2 → d.name ∈ [c!"(,)", c!"Punctuated", c!"PunctuatedNonEmpty"] := by
  decide +kernel

theorem names3 : ∀ d ∈ decls, d.params.length = 3 → d.name ∈ [c!"(,,)"] := by decide +kernel

theorem typeOf_simple : ∀ n ∈ simpleNames, ∃ (α : Type) (g : G α) (v : α → Val), TypeOf (.path0 n) g v := by
  simp only [simpleNames, List.forall_mem_cons]
  exact ⟨⟨_, _, _, .argumentList⟩, ⟨_, _, _, .argument⟩, ⟨_, _, _, .singleArgument⟩, ⟨_, _, _, .variadicArgument⟩, ⟨_, _, _, .extendedAttributeList⟩, ⟨_, _, _, .identifierList⟩, ⟨_, _, _, .extendedAttribute⟩, ⟨_, _, _, .extendedAttributeArgList⟩, ⟨_, _, _, .extendedAttributeNamedArgList⟩, ⟨_, _, _, .extendedAttributeIdentList⟩, ⟨_, _, _, .extendedAttributeIdent⟩, ⟨_, _, _, .extendedAttributeWildCard⟩, ⟨_, _, _, .extendedAttributeNoArgs⟩, ⟨_, _, _, .identifierOrString⟩, ⟨_, _, _, .identifier⟩, ⟨_, _, _, .default⟩, ⟨_, _, _, .dictionaryMembers⟩, ⟨_, _, _, .dictionaryMember⟩, ⟨_, _, _, .interfaceMembers⟩, ⟨_, _, _, .inheritance⟩, ⟨_, _, _, .interfaceMember⟩, ⟨_, _, _, .constMember⟩, ⟨_, _, _, .attributeInterfaceMember⟩, ⟨_, _, _, .constructorInterfaceMember⟩, ⟨_, _, _, .operationInterfaceMember⟩, ⟨_, _, _, .iterableInterfaceMember⟩, ⟨_, _, _, .singleTypedIterable⟩, ⟨_, _, _, .doubleTypedIterable⟩, ⟨_, _, _, .asyncIterableInterfaceMember⟩, ⟨_, _, _, .singleTypedAsyncIterable⟩, ⟨_, _, _, .doubleTypedAsyncIterable⟩, ⟨_, _, _, .maplikeInterfaceMember⟩, ⟨_, _, _, .setlikeInterfaceMember⟩, ⟨_, _, _, .stringifierMember⟩, ⟨_, _, _, .special⟩, ⟨_, _, _, .stringifierOrInheritOrStatic⟩, ⟨_, _, _, .stringifierOrStatic⟩, ⟨_, _, _, .definitions⟩, ⟨_, _, _, .definition⟩, ⟨_, _, _, .callbackDefinition⟩, ⟨_, _, _, .callbackInterfaceDefinition⟩, ⟨_, _, _, .interfaceDefinition⟩, ⟨_, _, _, .interfaceMixinDefinition⟩, ⟨_, _, _, .namespaceDefinition⟩, ⟨_, _, _, .dictionaryDefinition⟩, ⟨_, _, _, .partialInterfaceDefinition⟩, ⟨_, _, _, .partialInterfaceMixinDefinition⟩, ⟨_, _, _, .partialDictionaryDefinition⟩, ⟨_, _, _, .partialNamespaceDefinition⟩, ⟨_, _, _, .enumDefinition⟩, ⟨_, _, _, .typedefDefinition⟩, ⟨_, _, _, .includesStatementDefinition⟩, ⟨_, _, _, .implementsDefinition⟩, ⟨_, _, _, .enumValueList⟩, ⟨_, _, _, .integerLit⟩, ⟨_, _, _, .decLit⟩, ⟨_, _, _, .hexLit⟩, ⟨_, _, _, .octLit⟩, ⟨_, _, _, .stringLit⟩, ⟨_, _, _, .defaultValue⟩, ⟨_, _, _, .emptyArrayLit⟩, ⟨_, _, _, .emptyDictionaryLit⟩, ⟨_, _, _, .constValue⟩, ⟨_, _, _, .booleanLit⟩, ⟨_, _, _, .floatLit⟩, ⟨_, _, _, .floatValueLit⟩, ⟨_, _, _, .mixinMembers⟩, ⟨_, _, _, .mixinMember⟩, ⟨_, _, _, .operationMixinMember⟩, ⟨_, _, _, .attributeMixinMember⟩, ⟨_, _, _, .namespaceMembers⟩, ⟨_, _, _, .namespaceMember⟩, ⟨_, _, _, .constNamespaceMember⟩, ⟨_, _, _, .operationNamespaceMember⟩, ⟨_, _, _, .attributeNamespaceMember⟩, ⟨_, _, _, .unionType⟩, ⟨_, _, _, .type⟩, ⟨_, _, _, .singleType⟩, ⟨_, _, _, .nonAnyType⟩, ⟨_, _, _, .sequenceType⟩, ⟨_, _, _, .frozenArrayType⟩, ⟨_, _, _, .promiseType⟩, ⟨_, _, _, .integerType⟩, ⟨_, _, _, .longLongType⟩, ⟨_, _, _, .longType⟩, ⟨_, _, _, .shortType⟩, ⟨_, _, _, .floatingPointType⟩, ⟨_, _, _, .floatType⟩, ⟨_, _, _, .doubleType⟩, ⟨_, _, _, .recordType⟩, ⟨_, _, _, .recordKeyType⟩, ⟨_, _, _, .unionMemberType⟩, ⟨_, _, _, .constType⟩, ⟨_, _, _, .returnType⟩, ⟨_, _, _, .attributedType⟩, ⟨_, _, _, .attributedNonAnyType⟩, fun _ h => nomatch h⟩

theorem typeOf_all {T : RTy} (h : WellFormed decls T) : ∃ (α : Type) (g : G α) (v : α → Val), TypeOf T g v := by
  induction T with
  | path0 n =>
    obtain ⟨hs, d, hd, rfl, hp⟩ := h
    rcases simple_names d hd hp hs with h | h | h
    · exact typeOf_simple _ h
    · obtain ⟨p, -, e⟩ := List.mem_map.1 h
      rw [← e]
      exact ⟨_, _, _, .punct p⟩
    · obtain ⟨k, -, e⟩ := List.mem_map.1 h
      rw [← e]
      exact ⟨_, _, _, .kw k⟩
  | path1 n t ih =>
    obtain ⟨⟨d, hd, rfl, hp⟩, h⟩ := h
    obtain ⟨α, g, v, h⟩ := ih h
    have := names1 d hd hp
    simp only [List.mem_cons, List.not_mem_nil, or_false] at this
    rcases this with e | e | e | e | e | e | e | e <;> rw [e]
    · exact ⟨_, _, _, .option h⟩
    · exact ⟨_, _, _, .box h⟩
    · exact ⟨_, _, _, .vec h⟩
    · exact ⟨_, _, _, .parenthesized h⟩
    · exact ⟨_, _, _, .bracketed h⟩
    · exact ⟨_, _, _, .braced h⟩
    · exact ⟨_, _, _, .generics h⟩
    · exact ⟨_, _, _, .mayBeNull h⟩
  | path2 n t u ih ih' =>
    obtain ⟨⟨d, hd, rfl, hp⟩, h, h', hs⟩ := h
    obtain ⟨α, g, v, h⟩ := ih h
    have := names2 d hd hp
    simp only [List.mem_cons, List.not_mem_nil, or_false] at this
    rcases this with e | e | e <;> rw [e] at hs ⊢
    · obtain ⟨β, g', v', h'⟩ := ih' h'
      exact ⟨_, _, _, .pair h h'⟩
    · rcases hs (by decide) with ⟨p, rfl⟩ | ⟨k, rfl⟩
      · exact ⟨_, _, _, .punctuatedPunct p h⟩
      · exact ⟨_, _, _, .punctuatedKw k h⟩
    · rcases hs (by decide) with ⟨p, rfl⟩ | ⟨k, rfl⟩
      · exact ⟨_, _, _, .punctuatedNonEmptyPunct p h⟩
      · exact ⟨_, _, _, .punctuatedNonEmptyKw k h⟩
  | path3 n t u w ih ih' ih'' =>
    obtain ⟨⟨d, hd, rfl, hp⟩, h, h', h''⟩ := h
    obtain ⟨α, g, v, h⟩ := ih h
    obtain ⟨β, g', v', h'⟩ := ih' h'
    obtain ⟨γ, g'', v'', h''⟩ := ih'' h''
    have := names3 d hd hp
    simp only [List.mem_cons, List.not_mem_nil, or_false] at this
    rw [this]
    exact ⟨_, _, _, .triple h h' h''⟩

end Verif.Source
