import Verif.Proof.Documented
import Verif.Proof.Append
import Verif.Properties.Lexical
import Verif.Properties.Parts
import Verif.Source.Agree
import Verif.Source.Docs

/-!
# C55: the documented productions

The comments in the source give the form that each type parses. These forms are read off the comments, and what the
types accept is compared with them.
-/

namespace Verif.Properties
open Nom Spec Documented
open Source (Says TypeOf docOf)

/-- The documented types: the name, the parser, the form, and whether everything of this form is accepted. -/
inductive Documented : {α : Type} → Str → G α → Pat → Bool → Prop where
  | punct (p : Punct) (h : p ≠ .dot ∧ p ≠ .minus) : Documented (Source.punctType p) (G.punct p) (.word p.text) true
  | kw (k : Kw) (h : k ≠ .negInfinity ∧ k ≠ .bufferSource) : Documented (Source.kwType k) (G.kw k) (.word k.text) true
  | singleArgument : Documented c!"SingleArgument" G.singleArgument .singleArgument false
  | variadicArgument : Documented c!"VariadicArgument" G.variadicArgument .variadicArgument true
  | identifier : Documented c!"Identifier" G.ident .identifier true
  | decLit : Documented c!"DecLit" (.leaf .dec) .decLit true
  | octLit : Documented c!"OctLit" (.leaf .oct) .octLit true
  | floatValueLit : Documented c!"FloatValueLit" (.leaf .float) .floatValueLit true
  | stringLit : Documented c!"StringLit" G.stringLit .stringLit true
  | emptyArrayLit : Documented c!"EmptyArrayLit" G.emptyArrayLit .emptyArrayLit true
  | emptyDictionaryLit : Documented c!"EmptyDictionaryLit" G.emptyDictionaryLit .emptyDictionaryLit true
  | dictionaryMember : Documented c!"DictionaryMember" G.dictionaryMember .dictionaryMember false
  | inheritance : Documented c!"Inheritance" G.inheritance .inheritance true
  | constMember : Documented c!"ConstMember" G.constMember .constMember false
  | attributeInterfaceMember : Documented c!"AttributeInterfaceMember" G.attributeInterfaceMember .attributeInterfaceMember false
  | constructorInterfaceMember : Documented c!"ConstructorInterfaceMember" G.constructorInterfaceMember .constructorInterfaceMember true
  | operationInterfaceMember : Documented c!"OperationInterfaceMember" G.operationInterfaceMember .operationInterfaceMember false
  | iterable : Documented c!"IterableInterfaceMember" G.iterableInterfaceMember .iterable true
  | singleTypedIterable : Documented c!"SingleTypedIterable" G.singleTypedIterable .singleTypedIterable true
  | doubleTypedIterable : Documented c!"DoubleTypedIterable" G.doubleTypedIterable .doubleTypedIterable true
  | asyncIterable : Documented c!"AsyncIterableInterfaceMember" G.asyncIterableInterfaceMember .asyncIterable true
  | singleTypedAsyncIterable : Documented c!"SingleTypedAsyncIterable" G.singleTypedAsyncIterable .singleTypedAsyncIterable true
  | doubleTypedAsyncIterable : Documented c!"DoubleTypedAsyncIterable" G.doubleTypedAsyncIterable .doubleTypedAsyncIterable true
  | maplike : Documented c!"MaplikeInterfaceMember" G.maplikeInterfaceMember .maplike true
  | stringifierOrInheritOrStatic : Documented c!"StringifierOrInheritOrStatic" G.stringifierOrInheritOrStatic .stringifierOrInheritOrStatic true
  | stringifierOrStatic : Documented c!"StringifierOrStatic" G.stringifierOrStatic .stringifierOrStatic true
  | callback : Documented c!"CallbackDefinition" G.callbackDefinition .callback true
  | callbackInterface : Documented c!"CallbackInterfaceDefinition" G.callbackInterfaceDefinition .callbackInterface true
  | interface : Documented c!"InterfaceDefinition" G.interfaceDefinition .interface true
  | interfaceMixin : Documented c!"InterfaceMixinDefinition" G.interfaceMixinDefinition .interfaceMixin true
  | «namespace» : Documented c!"NamespaceDefinition" G.namespaceDefinition .namespace true
  | dictionary : Documented c!"DictionaryDefinition" G.dictionaryDefinition .dictionary true
  | partialInterface : Documented c!"PartialInterfaceDefinition" G.partialInterfaceDefinition .partialInterface true
  | partialInterfaceMixin : Documented c!"PartialInterfaceMixinDefinition" G.partialInterfaceMixinDefinition .partialInterfaceMixin true
  | partialDictionary : Documented c!"PartialDictionaryDefinition" G.partialDictionaryDefinition .partialDictionary true
  | partialNamespace : Documented c!"PartialNamespaceDefinition" G.partialNamespaceDefinition .partialNamespace true
  | enum : Documented c!"EnumDefinition" G.enumDefinition .enum true
  | typedef : Documented c!"TypedefDefinition" G.typedefDefinition .typedef false
  | includes : Documented c!"IncludesStatementDefinition" G.includesStatementDefinition .includes true
  | implements : Documented c!"ImplementsDefinition" G.implementsDefinition .implements true
  | operationMixinMember : Documented c!"OperationMixinMember" G.operationMixinMember .operationMixinMember false
  | attributeMixinMember : Documented c!"AttributeMixinMember" G.attributeMixinMember .attributeMixinMember false
  | constNamespaceMember : Documented c!"ConstNamespaceMember" G.constMember .constMember false
  | operationNamespaceMember : Documented c!"OperationNamespaceMember" G.operationNamespaceMember .operationNamespaceMember true
  | sequence : Documented c!"SequenceType" G.sequenceType .sequence true
  | frozenArray : Documented c!"FrozenArrayType" G.frozenArrayType .frozenArray true
  | promise : Documented c!"PromiseType" G.promiseType .promise false
  | integerType : Documented c!"IntegerType" G.integerType .integerType true
  | longLong : Documented c!"LongLongType" G.longLongType .longLong true
  | long : Documented c!"LongType" G.longType .long true
  | short : Documented c!"ShortType" G.shortType .short true
  | floatingPointType : Documented c!"FloatingPointType" G.floatingPointType .floatingPointType true
  | float : Documented c!"FloatType" G.floatType .float true
  | double : Documented c!"DoubleType" G.doubleType .double true
  | record : Documented c!"RecordType" G.recordType .record true
  | attributedType : Documented c!"AttributedType" G.attributedType .attributedType true
  | attributedNonAnyType : Documented c!"AttributedNonAnyType" G.attributedNonAnyType .attributedNonAnyType true

theorem says_punct (p : Punct) : (docOf Source.term_rs (Source.punctType p)).map Source.squeeze = some p.text := by
  have h : Source.puncts.all (fun p => (docOf Source.term_rs (Source.punctType p)).map Source.squeeze == some p.text) =
    true := by decide +kernel
  exact beq_iff_eq.1 (List.all_eq_true.1 h p (by cases p <;> simp [Source.puncts]))

theorem says_kw (k : Kw) (h : k ≠ .negInfinity ∧ k ≠ .bufferSource) :
    (docOf Source.term_rs (Source.kwType k)).map Source.squeeze = some k.text := by
  have h' : (Source.kws.filter fun k => k ≠ .negInfinity ∧ k ≠ .bufferSource).all
    (fun k => (docOf Source.term_rs (Source.kwType k)).map Source.squeeze == some k.text) = true := by decide +kernel
  exact beq_iff_eq.1 (List.all_eq_true.1 h' k (List.mem_filter.2 ⟨by cases k <;> simp [Source.kws], by simpa using h⟩))

/-- The forms are those in the comments. -/
theorem C55_quoted {α : Type} {n : Str} {g : G α} {p : Pat} {e : Bool} (h : Documented n g p e) : Says n p.shown := by
  cases h with
  | punct p h => exact Source.says 9 (says_punct p)
  | kw k h => exact Source.says 9 (says_kw k h)
  | singleArgument => exact Source.says 0 (by decide +kernel)
  | variadicArgument => exact Source.says 0 (by decide +kernel)
  | identifier => exact Source.says 2 (by decide +kernel)
  | decLit => exact Source.says 6 (by decide +kernel)
  | octLit => exact Source.says 6 (by decide +kernel)
  | floatValueLit => exact Source.says 6 (by decide +kernel)
  | stringLit => exact Source.says 6 (by decide +kernel)
  | emptyArrayLit => exact Source.says 6 (by decide +kernel)
  | emptyDictionaryLit => exact Source.says 6 (by decide +kernel)
  | dictionaryMember => exact Source.says 3 (by decide +kernel)
  | inheritance => exact Source.says 4 (by decide +kernel)
  | constMember => exact Source.says 4 (by decide +kernel)
  | attributeInterfaceMember => exact Source.says 4 (by decide +kernel)
  | constructorInterfaceMember => exact Source.says 4 (by decide +kernel)
  | operationInterfaceMember => exact Source.says 4 (by decide +kernel)
  | iterable => exact Source.says 4 (by decide +kernel)
  | singleTypedIterable => exact Source.says 4 (by decide +kernel)
  | doubleTypedIterable => exact Source.says 4 (by decide +kernel)
  | asyncIterable => exact Source.says 4 (by decide +kernel)
  | singleTypedAsyncIterable => exact Source.says 4 (by decide +kernel)
  | doubleTypedAsyncIterable => exact Source.says 4 (by decide +kernel)
  | maplike => exact Source.says 4 (by decide +kernel)
  | stringifierOrInheritOrStatic => exact Source.says 4 (by decide +kernel)
  | stringifierOrStatic => exact Source.says 4 (by decide +kernel)
  | callback => exact Source.says 5 (by decide +kernel)
  | callbackInterface => exact Source.says 5 (by decide +kernel)
  | interface => exact Source.says 5 (by decide +kernel)
  | interfaceMixin => exact Source.says 5 (by decide +kernel)
  | «namespace» => exact Source.says 5 (by decide +kernel)
  | dictionary => exact Source.says 5 (by decide +kernel)
  | partialInterface => exact Source.says 5 (by decide +kernel)
  | partialInterfaceMixin => exact Source.says 5 (by decide +kernel)
  | partialDictionary => exact Source.says 5 (by decide +kernel)
  | partialNamespace => exact Source.says 5 (by decide +kernel)
  | enum => exact Source.says 5 (by decide +kernel)
  | typedef => exact Source.says 5 (by decide +kernel)
  | includes => exact Source.says 5 (by decide +kernel)
  | implements => exact Source.says 5 (by decide +kernel)
  | operationMixinMember => exact Source.says 7 (by decide +kernel)
  | attributeMixinMember => exact Source.says 7 (by decide +kernel)
  | constNamespaceMember => exact Source.says 8 (by decide +kernel)
  | operationNamespaceMember => exact Source.says 8 (by decide +kernel)
  | sequence => exact Source.says 10 (by decide +kernel)
  | frozenArray => exact Source.says 10 (by decide +kernel)
  | promise => exact Source.says 10 (by decide +kernel)
  | integerType => exact Source.says 10 (by decide +kernel)
  | longLong => exact Source.says 10 (by decide +kernel)
  | long => exact Source.says 10 (by decide +kernel)
  | short => exact Source.says 10 (by decide +kernel)
  | floatingPointType => exact Source.says 10 (by decide +kernel)
  | float => exact Source.says 10 (by decide +kernel)
  | double => exact Source.says 10 (by decide +kernel)
  | record => exact Source.says 10 (by decide +kernel)
  | attributedType => exact Source.says 10 (by decide +kernel)
  | attributedNonAnyType => exact Source.says 10 (by decide +kernel)

/-- The parsers are those of the types. -/
theorem C55_named {α : Type} {n : Str} {g : G α} {p : Pat} {e : Bool} (h : Documented n g p e) :
    ∃ v, TypeOf (.path0 n) g v := by
  cases h with
  | punct p h => exact ⟨_, .punct p⟩
  | kw k h => exact ⟨_, .kw k⟩
  | singleArgument => exact ⟨_, .singleArgument⟩
  | variadicArgument => exact ⟨_, .variadicArgument⟩
  | identifier => exact ⟨_, .identifier⟩
  | decLit => exact ⟨_, .decLit⟩
  | octLit => exact ⟨_, .octLit⟩
  | floatValueLit => exact ⟨_, .floatValueLit⟩
  | stringLit => exact ⟨_, .stringLit⟩
  | emptyArrayLit => exact ⟨_, .emptyArrayLit⟩
  | emptyDictionaryLit => exact ⟨_, .emptyDictionaryLit⟩
  | dictionaryMember => exact ⟨_, .dictionaryMember⟩
  | inheritance => exact ⟨_, .inheritance⟩
  | constMember => exact ⟨_, .constMember⟩
  | attributeInterfaceMember => exact ⟨_, .attributeInterfaceMember⟩
  | constructorInterfaceMember => exact ⟨_, .constructorInterfaceMember⟩
  | operationInterfaceMember => exact ⟨_, .operationInterfaceMember⟩
  | iterable => exact ⟨_, .iterableInterfaceMember⟩
  | singleTypedIterable => exact ⟨_, .singleTypedIterable⟩
  | doubleTypedIterable => exact ⟨_, .doubleTypedIterable⟩
  | asyncIterable => exact ⟨_, .asyncIterableInterfaceMember⟩
  | singleTypedAsyncIterable => exact ⟨_, .singleTypedAsyncIterable⟩
  | doubleTypedAsyncIterable => exact ⟨_, .doubleTypedAsyncIterable⟩
  | maplike => exact ⟨_, .maplikeInterfaceMember⟩
  | stringifierOrInheritOrStatic => exact ⟨_, .stringifierOrInheritOrStatic⟩
  | stringifierOrStatic => exact ⟨_, .stringifierOrStatic⟩
  | callback => exact ⟨_, .callbackDefinition⟩
  | callbackInterface => exact ⟨_, .callbackInterfaceDefinition⟩
  | interface => exact ⟨_, .interfaceDefinition⟩
  | interfaceMixin => exact ⟨_, .interfaceMixinDefinition⟩
  | «namespace» => exact ⟨_, .namespaceDefinition⟩
  | dictionary => exact ⟨_, .dictionaryDefinition⟩
  | partialInterface => exact ⟨_, .partialInterfaceDefinition⟩
  | partialInterfaceMixin => exact ⟨_, .partialInterfaceMixinDefinition⟩
  | partialDictionary => exact ⟨_, .partialDictionaryDefinition⟩
  | partialNamespace => exact ⟨_, .partialNamespaceDefinition⟩
  | enum => exact ⟨_, .enumDefinition⟩
  | typedef => exact ⟨_, .typedefDefinition⟩
  | includes => exact ⟨_, .includesStatementDefinition⟩
  | implements => exact ⟨_, .implementsDefinition⟩
  | operationMixinMember => exact ⟨_, .operationMixinMember⟩
  | attributeMixinMember => exact ⟨_, .attributeMixinMember⟩
  | constNamespaceMember => exact ⟨_, .constNamespaceMember⟩
  | operationNamespaceMember => exact ⟨_, .operationNamespaceMember⟩
  | sequence => exact ⟨_, .sequenceType⟩
  | frozenArray => exact ⟨_, .frozenArrayType⟩
  | promise => exact ⟨_, .promiseType⟩
  | integerType => exact ⟨_, .integerType⟩
  | longLong => exact ⟨_, .longLongType⟩
  | long => exact ⟨_, .longType⟩
  | short => exact ⟨_, .shortType⟩
  | floatingPointType => exact ⟨_, .floatingPointType⟩
  | float => exact ⟨_, .floatType⟩
  | double => exact ⟨_, .doubleType⟩
  | record => exact ⟨_, .recordType⟩
  | attributedType => exact ⟨_, .attributedType⟩
  | attributedNonAnyType => exact ⟨_, .attributedNonAnyType⟩

theorem Documented.fits {α : Type} {n : Str} {g : G α} {p : Pat} {e : Bool} (h : Documented n g p e) :
    ∃ L : α → Lang, (PartOf g L ∨ WholeOf g L) ∧ Fits L p ∧ (e = true → Fills L p) := by
  cases h with
  | punct p h =>
    by_cases hs : p = .semiColon
    · subst hs
      exact ⟨_, .inr .semiColon, fits_unit, fun _ => fills_unit⟩
    · exact ⟨_, .inl (.punct p ⟨h.1, h.2, hs⟩), fits_unit, fun _ => fills_unit⟩
  | kw k h => exact ⟨_, .inl (.kw k), fits_unit, fun _ => fills_unit⟩
  | singleArgument => exact ⟨_, (.inl .singleArgument), fits_singleArgument, fun h => nomatch h⟩
  | variadicArgument => exact ⟨_, (.inl .variadicArgument), fits_variadicArgument, fun _ => fills_variadicArgument⟩
  | identifier => exact ⟨_, (.inl .ident), fits_identifier, fun _ => fills_identifier⟩
  | decLit => exact ⟨_, (.inl .decLit), fits_hole, fun _ => fills_hole⟩
  | octLit => exact ⟨_, (.inl .octLit), fits_hole, fun _ => fills_hole⟩
  | floatValueLit => exact ⟨_, (.inl .floatValueLit), fits_hole, fun _ => fills_hole⟩
  | stringLit => exact ⟨_, (.inl .stringLit), fits_stringLit, fun _ => fills_stringLit⟩
  | emptyArrayLit => exact ⟨_, (.inl .emptyArrayLit), fits_unit, fun _ => fills_unit⟩
  | emptyDictionaryLit => exact ⟨_, (.inl .emptyDictionaryLit), fits_unit, fun _ => fills_unit⟩
  | dictionaryMember => exact ⟨_, (.inr .dictionaryMember), fits_dictionaryMember, fun h => nomatch h⟩
  | inheritance => exact ⟨_, (.inl .inheritance), fits_inheritance, fun _ => fills_inheritance⟩
  | constMember => exact ⟨_, (.inr .constMember), fits_constMember, fun h => nomatch h⟩
  | attributeInterfaceMember => exact ⟨_, (.inr .attributeInterfaceMember), fits_attribute, fun h => nomatch h⟩
  | constructorInterfaceMember => exact ⟨_, (.inr .constructorInterfaceMember), fits_constructor, fun _ => fills_constructor⟩
  | operationInterfaceMember => exact ⟨_, (.inr .operationInterfaceMember), fits_operation, fun h => nomatch h⟩
  | iterable => exact ⟨_, (.inr .iterable), fits_iterable, fun _ => fills_iterable⟩
  | singleTypedIterable => exact ⟨_, (.inr .singleTypedIterable), fits_singleTypedIterable, fun _ => fills_singleTypedIterable⟩
  | doubleTypedIterable => exact ⟨_, (.inr .doubleTypedIterable), fits_doubleTypedIterable, fun _ => fills_doubleTypedIterable⟩
  | asyncIterable => exact ⟨_, (.inr .asyncIterable), fits_asyncIterable, fun _ => fills_asyncIterable⟩
  | singleTypedAsyncIterable => exact ⟨_, (.inr .singleTypedAsyncIterable), fits_singleTypedAsyncIterable, fun _ => fills_singleTypedAsyncIterable⟩
  | doubleTypedAsyncIterable => exact ⟨_, (.inr .doubleTypedAsyncIterable), fits_doubleTypedAsyncIterable, fun _ => fills_doubleTypedAsyncIterable⟩
  | maplike => exact ⟨_, (.inr .maplike), fits_maplike, fun _ => fills_maplike⟩
  | stringifierOrInheritOrStatic => exact ⟨_, (.inl .stringifierOrInheritOrStatic), fits_modifier, fun _ => fills_modifier⟩
  | stringifierOrStatic => exact ⟨_, (.inl .stringifierOrStatic), fits_static, fun _ => fills_static⟩
  | callback => exact ⟨_, (.inr .callback), fits_callback, fun _ => fills_callback⟩
  | callbackInterface => exact ⟨_, (.inr .callbackInterface), fits_callbackInterface, fun _ => fills_callbackInterface⟩
  | interface => exact ⟨_, (.inr .interface), fits_interface, fun _ => fills_interface⟩
  | interfaceMixin => exact ⟨_, (.inr .interfaceMixin), fits_interfaceMixin, fun _ => fills_interfaceMixin⟩
  | «namespace» => exact ⟨_, (.inr .namespace), fits_namespace, fun _ => fills_namespace⟩
  | dictionary => exact ⟨_, (.inr .dictionary), fits_dictionary, fun _ => fills_dictionary⟩
  | partialInterface => exact ⟨_, (.inr .partialInterface), fits_partialInterface, fun _ => fills_partialInterface⟩
  | partialInterfaceMixin => exact ⟨_, (.inr .partialInterfaceMixin), fits_partialInterfaceMixin, fun _ => fills_partialInterfaceMixin⟩
  | partialDictionary => exact ⟨_, (.inr .partialDictionary), fits_partialDictionary, fun _ => fills_partialDictionary⟩
  | partialNamespace => exact ⟨_, (.inr .partialNamespace), fits_partialNamespace, fun _ => fills_partialNamespace⟩
  | enum => exact ⟨_, (.inr .enum), fits_enum, fun _ => fills_enum⟩
  | typedef => exact ⟨_, (.inr .typedef), fits_typedef, fun h => nomatch h⟩
  | includes => exact ⟨_, (.inr .includes), fits_includes, fun _ => fills_includes⟩
  | implements => exact ⟨_, (.inr .implements), fits_implements, fun _ => fills_implements⟩
  | operationMixinMember => exact ⟨_, (.inr .operationMixinMember), fits_operationMixin, fun h => nomatch h⟩
  | attributeMixinMember => exact ⟨_, (.inr .attributeMixinMember), fits_attributeMixin, fun h => nomatch h⟩
  | constNamespaceMember => exact ⟨_, (.inr .constMember), fits_constMember, fun h => nomatch h⟩
  | operationNamespaceMember => exact ⟨_, (.inr .operationNamespaceMember), fits_operationNamespace, fun _ => fills_operationNamespace⟩
  | sequence => exact ⟨_, (.inl .sequenceType), fits_sequence, fun _ => fills_sequence⟩
  | frozenArray => exact ⟨_, (.inl .frozenArrayType), fits_frozenArray, fun _ => fills_frozenArray⟩
  | promise => exact ⟨_, (.inl .promiseType), fits_promise, fun h => nomatch h⟩
  | integerType => exact ⟨_, (.inl .integerType), fits_integerType, fun _ => fills_integerType⟩
  | longLong => exact ⟨_, (.inl .longLongType), fits_longLong, fun _ => fills_longLong⟩
  | long => exact ⟨_, (.inl .longType), fits_long, fun _ => fills_long⟩
  | short => exact ⟨_, (.inl .shortType), fits_short, fun _ => fills_short⟩
  | floatingPointType => exact ⟨_, (.inl .floatingPointType), fits_floatingPointType, fun _ => fills_floatingPointType⟩
  | float => exact ⟨_, (.inl .floatType), fits_float, fun _ => fills_float⟩
  | double => exact ⟨_, (.inl .doubleType), fits_double, fun _ => fills_double⟩
  | record => exact ⟨_, (.inl .recordType), fits_record, fun _ => fills_record⟩
  | attributedType => exact ⟨_, (.inl .attributedType), fits_attributedType, fun _ => fills_attributedType⟩
  | attributedNonAnyType => exact ⟨_, (.inl .attributedNonAnyType), fits_attributedNonAnyType, fun _ => fills_attributedNonAnyType⟩

/-- What is accepted is of the documented form. -/
theorem C55_follows {α : Type} {n : Str} {g : G α} {p : Pat} {e : Bool} (h : Documented n g p e) {s : Str} {a : α}
    (hs : g.parse s = .ok [] a) : Follows p s := by
  obtain ⟨L, hg, hf, -⟩ := h.fits
  obtain ⟨t, ls, b, rfl, ht, hl, hb⟩ := (C47_text hg s a).1 hs
  exact ⟨t, ls, b, rfl, ht, hf a ls hl, hb⟩

example : Follows .maplike c!"[a] readonly maplike <long, [b] (c or d)> ;" := C55_follows .maplike rfl

/-- Everything of the documented form is accepted. -/
theorem C55_exact {α : Type} {n : Str} {g : G α} {p : Pat} (h : Documented n g p true) {s : Str} (hs : Follows p s) :
    ∃ a, g.parse s = .ok [] a := by
  obtain ⟨L, hg, -, hf⟩ := h.fits
  obtain ⟨t, ls, b, rfl, ht, hp, hb⟩ := hs
  obtain ⟨a, hl⟩ := hf rfl ls hp
  exact ⟨a, (C47_text hg _ a).2 ⟨t, ls, b, rfl, ht, hl, hb⟩⟩

example : ∃ a, G.recordType.parse c!"record < DOMString, (a or b)? >" = .ok [] a := C55_exact .record (C55_follows .record rfl)

theorem follows_spaced {p : Pat} {ls : List Str} (h : p.lang ls) : Follows p (spaced ls) :=
  ⟨[], ls, _, rfl, .nil, h, text_spaced ls⟩

/-- The remaining forms are too wide: `long long` is not a `long` called `long`, `static` is not a type in front of
`(`, and there is no `undefined?`. -/
theorem C55_not_exact {α : Type} {n : Str} {g : G α} {p : Pat} (h : Documented n g p false) :
    ∃ s, Follows p s ∧ ∀ a, g.parse s ≠ .ok [] a := by
  have w1 : Regex.word.Matches c!"long" := WebIDL.word_of rfl
  have i1 : Pat.ident.lang [c!"long"] := ⟨c!"long", w1, .inl rfl⟩
  have n1 : nonAnyType (.integer (.long false) false) [c!"long"] := by
    simp only [nonAnyType]
    exact ⟨[_], [], rfl, ⟨[], [_], rfl, rfl, rfl⟩, rfl⟩
  have t1 : type (.single (.nonAny (.integer (.long false) false))) [c!"long"] := by
    simp only [type, singleType]
    exact ⟨n1, by simp⟩
  have a1 : Pat.attributedTy.lang [c!"long"] := by
    refine ⟨.mk none (.single (.nonAny (.integer (.long false) false))), ?_⟩
    simp only [attributedType, attributes]
    exact ⟨[], _, rfl, rfl, t1⟩
  have r1 : ∀ w, WebIDL.isWord w = true → w ∉ typeWords → w ≠ c!"any" → w ≠ c!"undefined" → Pat.returnTy.lang [w] := by
    intro w h h1 h2 h3
    refine ⟨.type (.single (.nonAny (.identifier w false))), ?_⟩
    simp only [returnType, type, singleType, nonAnyType]
    exact ⟨⟨⟨[_], [], rfl, ⟨WebIDL.word_of h, .inl ⟨rfl, h1⟩⟩, rfl⟩, by simpa using h2.symm⟩, by simpa using h3.symm⟩
  have g1 : Pat.args.lang [c!"(", c!")"] := ⟨[_], [_], rfl, rfl, [], [_], rfl, ⟨[], rfl⟩, rfl⟩
  cases h with
  | singleArgument =>
    exact ⟨_, follows_spaced (ls := [c!"long", c!"long"]) ⟨[], _, rfl, .inl rfl, [], _, rfl, .inl rfl, [_], _, rfl, a1,
      [_], [], rfl, i1, .inl rfl⟩, fun a h => nomatch h⟩
  | dictionaryMember =>
    exact ⟨_, follows_spaced (ls := [c!"long", c!"long", c!";"]) ⟨[], _, rfl, .inl rfl, [], _, rfl, .inl rfl, [_], _, rfl,
      ⟨_, t1⟩, [_], _, rfl, i1, [], [_], rfl, .inl rfl, rfl⟩, fun a h => nomatch h⟩
  | constMember =>
    exact ⟨_, follows_spaced (ls := [c!"const", c!"long", c!"long", c!"=", c!"true", c!";"]) ⟨[], _, rfl, .inl rfl,
      [_], _, rfl, rfl, [_], _, rfl, ⟨.integer (.long false) false, [_], [], rfl, ⟨[], [_], rfl, rfl, rfl⟩, rfl⟩,
      [_], _, rfl, i1, [_], _, rfl, rfl, [_], [_], rfl, ⟨.boolean true, rfl⟩, rfl⟩, fun a h => nomatch h⟩
  | constNamespaceMember =>
    exact ⟨_, follows_spaced (ls := [c!"const", c!"long", c!"long", c!"=", c!"true", c!";"]) ⟨[], _, rfl, .inl rfl,
      [_], _, rfl, rfl, [_], _, rfl, ⟨.integer (.long false) false, [_], [], rfl, ⟨[], [_], rfl, rfl, rfl⟩, rfl⟩,
      [_], _, rfl, i1, [_], _, rfl, rfl, [_], [_], rfl, ⟨.boolean true, rfl⟩, rfl⟩, fun a h => nomatch h⟩
  | attributeInterfaceMember =>
    exact ⟨_, follows_spaced (ls := [c!"attribute", c!"long", c!"long", c!";"]) ⟨[], _, rfl, .inl rfl, [], _, rfl, .inl rfl,
      [], _, rfl, .inl rfl, [_], _, rfl, rfl, [_], _, rfl, a1, [_], [_], rfl, i1, rfl⟩, fun a h => nomatch h⟩
  | attributeMixinMember =>
    exact ⟨_, follows_spaced (ls := [c!"attribute", c!"long", c!"long", c!";"]) ⟨[], _, rfl, .inl rfl, [], _, rfl, .inl rfl,
      [], _, rfl, .inl rfl, [_], _, rfl, rfl, [_], _, rfl, a1, [_], [_], rfl, i1, rfl⟩, fun a h => nomatch h⟩
  | typedef =>
    exact ⟨_, follows_spaced (ls := [c!"typedef", c!"long", c!"long", c!";"]) ⟨[], _, rfl, .inl rfl,
      [_], _, rfl, rfl, [_], _, rfl, a1, [_], [_], rfl, i1, rfl⟩, fun a h => nomatch h⟩
  | operationInterfaceMember =>
    exact ⟨_, follows_spaced (ls := [c!"static", c!"(", c!")", c!";"]) ⟨[], _, rfl, .inl rfl, [], _, rfl, .inl rfl,
      [], _, rfl, .inl rfl, [_], _, rfl, r1 _ rfl (by decide) (by decide) (by decide), [], _, rfl, .inl rfl,
      [_, _], [_], rfl, g1, rfl⟩, fun a h => nomatch h⟩
  | operationMixinMember =>
    exact ⟨_, follows_spaced (ls := [c!"stringifier", c!"(", c!")", c!";"]) ⟨[], _, rfl, .inl rfl, [], _, rfl, .inl rfl,
      [_], _, rfl, r1 _ rfl (by decide) (by decide) (by decide), [], _, rfl, .inl rfl,
      [_, _], [_], rfl, g1, rfl⟩, fun a h => nomatch h⟩
  | promise =>
    refine ⟨_, follows_spaced (ls := [c!"Promise", c!"<", c!"undefined", c!"?", c!">"]) ⟨[_], _, rfl, rfl, [_], _, rfl, rfl,
      [_, _], [_], rfl, .inl ⟨.single (.nonAny (.identifier c!"undefined" true)), ?_⟩, rfl⟩, fun a h => nomatch h⟩
    simp only [type, singleType, nonAnyType]
    exact ⟨⟨[_], [_], rfl, ⟨WebIDL.word_of rfl, .inl ⟨rfl, by decide⟩⟩, rfl⟩, by simp⟩

/-- The types with documentation that does not describe them. -/
inductive Misdocumented : {α : Type} → Str → G α → Pat → Prop where
  | hexLit : Misdocumented c!"HexLit" (.leaf .hex) .hexLit
  | stringifierMember : Misdocumented c!"StringifierMember" G.stringifierMember .stringifierMember
  | special : Misdocumented c!"Special" G.special .special
  | identifierOrString : Misdocumented c!"IdentifierOrString" G.identifierOrString .stringifierOrStatic
  | attributeNamespaceMember : Misdocumented c!"AttributeNamespaceMember" G.attributeNamespaceMember .attributeNamespaceMember
  | negInfinity : Misdocumented c!"NegInfinity" (G.kw .negInfinity) (.word c!"Infinity")

/-- These accept something that is not of the documented form. -/
theorem C55_disagree {α : Type} {n : Str} {g : G α} {p : Pat} (h : Misdocumented n g p) :
    Says n p.shown ∧ (∃ v, TypeOf (.path0 n) g v) ∧ ∃ s a, g.parse s = .ok [] a ∧ ¬ Follows p s := by
  cases h with
  | hexLit =>
    refine ⟨Source.says 6 (by decide +kernel), ⟨_, .hexLit⟩, c!"0x", _, rfl, ?_⟩
    rintro ⟨t, ls, b, h1, h2, ⟨v, h3, h5⟩, h4⟩
    have h6 : Regex.hex.Matches v := by
      cases h3 with
      | seq h h3 => cases h3 with
        | seq h' h3 => cases h3 with
          | seq h'' h3 => cases h3 with
            | seq a b => exact .seq h (.seq h' (.seq h'' (.starCons a b)))
    have h7 := (C47_text (.inl .hexLit) _ v).2 ⟨t, ls, b, h1, h2, ⟨h6, h5⟩, h4⟩
    cases h7
    exact C11_undocumented.2 h3
  | stringifierMember =>
    refine ⟨Source.says 4 (by decide +kernel), ⟨_, .stringifierMember⟩, c!"[a] stringifier;", _, rfl, ?_⟩
    rintro ⟨t, ls, b, h1, h2, h3, h4⟩
    have := (C47_text (.inr .stringifier) _ ⟨none⟩).2 ⟨t, ls, b, h1, h2, ⟨[], _, rfl, by simp only [attributes]; rfl, h3⟩, h4⟩
    exact nomatch this
  | special =>
    refine ⟨Source.says 4 (by decide +kernel), ⟨_, .special⟩, c!"legacycaller", _, rfl, ?_⟩
    rintro ⟨t, ls, b, h1, h2, h3, h4⟩
    rcases h3 with h3 | h3 | h3
    · exact nomatch (C47_text (.inl (.kw .getter)) _ ()).2 ⟨t, ls, b, h1, h2, h3, h4⟩
    · exact nomatch (C47_text (.inl (.kw .setter)) _ ()).2 ⟨t, ls, b, h1, h2, h3, h4⟩
    · exact nomatch (C47_text (.inl (.kw .deleter)) _ ()).2 ⟨t, ls, b, h1, h2, h3, h4⟩
  | identifierOrString =>
    refine ⟨Source.says 1 (by decide +kernel), ⟨_, .identifierOrString⟩, c!"x", _, rfl, ?_⟩
    rintro ⟨t, ls, b, h1, h2, h3, h4⟩
    rcases h3 with h3 | h3
    · exact nomatch (C47_text (.inl (.kw .stringifier)) _ ()).2 ⟨t, ls, b, h1, h2, h3, h4⟩
    · exact nomatch (C47_text (.inl (.kw .static)) _ ()).2 ⟨t, ls, b, h1, h2, h3, h4⟩
  | attributeNamespaceMember =>
    refine ⟨Source.says 8 (by decide +kernel), ⟨_, .attributeNamespaceMember⟩, c!"readonly attribute any x;", _, rfl, ?_⟩
    rintro ⟨t, ls, b, h1, h2, ⟨a, _, rfl, h3, _, c, rfl, rfl, _, d, rfl, rfl, -⟩, h4⟩
    have h5 : strip c!"readonly attribute any x;" = strip b := by rw [h1, strip_trivia h2]
    rcases h3 with rfl | ⟨_, _, rfl, rfl, -⟩
    · cases h4 with
      | cons ht hs ha =>
        cases hs with
        | cons ht' hs' ha' =>
          rw [triviaStart (by simp), triviaStart (by simp)] at h5
          have h6 := congrArg (fun s => strip (s.drop 8)) h5
          simp only [List.cons_append, List.nil_append, List.drop_succ_cons, List.drop_zero, strip_trivia ht] at h6
          rw [strip_ws (by rfl), triviaStart (by simp), triviaStart (by simp)] at h6
          simp at h6
    · cases h4 with
      | cons ht hs ha =>
        rw [triviaStart (by simp), triviaStart (by simp)] at h5
        simp at h5
  | negInfinity =>
    refine ⟨Source.says 9 (by decide +kernel), ⟨_, .kw .negInfinity⟩, c!"-Infinity", _, rfl, ?_⟩
    rintro ⟨t, ls, b, h1, h2, h3, h4⟩
    exact nomatch (C47_text (.inl (.kw .infinity)) _ ()).2 ⟨t, ls, b, h1, h2, h3, h4⟩

/-- "(( )) means ( ) chars" -/
def chars : Str → Str
  | '(' :: '(' :: s => '(' :: chars s
  | ')' :: ')' :: s => ')' :: chars s
  | c :: s => c :: chars s
  | [] => []

/-- The documentation of the type `n` gives the example `e`. -/
def GivesExample (n e : Str) : Prop := ∃ f ∈ Source.files, (docOf f n).map chars = some e

/-! The examples in the documentation are accepted. -/

example : ∃ e a, GivesExample c!"ExtendedAttributeArgList" e ∧ G.extAttrArgList.parse e = .ok [] a :=
  ⟨c!"Constructor(double x, double y)", _, ⟨_, List.get_mem Source.files (1 : Fin 11), by decide +kernel⟩, rfl⟩

example : ∃ e a, GivesExample c!"ExtendedAttributeNamedArgList" e ∧ G.extAttrNamedArgList.parse e = .ok [] a :=
  ⟨c!"NamedConstructor=Image(DOMString src)", _, ⟨_, List.get_mem Source.files (1 : Fin 11), by decide +kernel⟩, rfl⟩

example : ∃ e a, GivesExample c!"ExtendedAttributeIdentList" e ∧ G.extAttrIdentList.parse e = .ok [] a :=
  ⟨c!"Exposed=(Window,Worker)", _, ⟨_, List.get_mem Source.files (1 : Fin 11), by decide +kernel⟩, rfl⟩

example : ∃ e a, GivesExample c!"ExtendedAttributeIdent" e ∧ G.extAttrIdent.parse e = .ok [] a :=
  ⟨c!"PutForwards=name", _, ⟨_, List.get_mem Source.files (1 : Fin 11), by decide +kernel⟩, rfl⟩

example : ∃ e a, GivesExample c!"ExtendedAttributeWildCard" e ∧ G.extAttrWildcard.parse e = .ok [] a :=
  ⟨c!"Exposed=*", _, ⟨_, List.get_mem Source.files (1 : Fin 11), by decide +kernel⟩, rfl⟩

example : ∃ e a, GivesExample c!"ExtendedAttributeNoArgs" e ∧ G.extAttrNoArgs.parse e = .ok [] a :=
  ⟨c!"Replaceable", _, ⟨_, List.get_mem Source.files (1 : Fin 11), by decide +kernel⟩, rfl⟩

example : ∃ e a, GivesExample c!"Default" e ∧ G.default.parse e = .ok [] a :=
  ⟨c!"= 45", _, ⟨_, List.get_mem Source.files (2 : Fin 11), by decide +kernel⟩, rfl⟩

end Verif.Properties
