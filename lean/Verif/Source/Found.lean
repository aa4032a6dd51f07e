import Verif.Source.ExactTypes

/-!
# Every value of a type without parameters occurs in a document

Each AST that can be printed is put into a definition that can be printed.
-/

namespace Verif.Source.Exact
open Spec Properties

theorem _root_.Verif.Source.Part.trans {u v w : Val} (h : Part u v) (h' : Part v w) : Part u w := by
  induction h' with
  | refl => exact h
  | pair1 _ ih => exact .pair1 ih
  | pair2 _ ih => exact .pair2 ih
  | triple1 _ ih => exact .triple1 ih
  | triple2 _ ih => exact .triple2 ih
  | triple3 _ ih => exact .triple3 ih
  | some _ ih => exact .some ih
  | list hm _ ih => exact .list hm ih
  | box _ ih => exact .box ih
  | struct hm _ ih => exact .struct hm ih
  | newtype _ ih => exact .newtype ih
  | variant _ ih => exact .variant ih

theorem lookup_mem {x : Str} {v : Val} : ∀ {vs : List (Str × Val)}, vs.lookup x = some v → (x, v) ∈ vs
  | (y, w) :: vs, h => by
    simp only [List.lookup] at h
    split at h
    · rename_i e
      cases eq_of_beq e
      cases h
      exact .head _
    · exact .tail _ (lookup_mem h)

/-- In the field `x`. -/
theorem inField {n : Str} {u v : Val} {vs : List (Str × Val)} (x : Str) (e : vs.lookup x = some v) (h : Part u v) : Part u (.struct n vs) :=
  .struct (lookup_mem e) h

/-- `v` occurs in a definition that can be printed. -/
def Found (v : Val) : Prop := ∃ d, WfDefinition d ∧ Part v (definitionVal d)

/-- Every value whose parts are `Legal` occurs in a definition that can be printed. -/
def In (T : RTy) : Prop := ∀ v, HasType crateItems T v → (∀ u, Part u v → Legal u) → Found v

theorem Found.of {u v : Val} (h : Found v) (h' : Part u v) : Found u := by
  obtain ⟨d, w, p⟩ := h
  exact ⟨d, w, .trans h' p⟩

theorem onto {α : Type} {T : RTy} {f : α → Val} {W : α → Prop} (hO : ∀ n, Onto n T f W) (h : ∀ a, W a → Found (f a)) : In T := by
  intro v hv hl
  obtain ⟨a, rfl, w⟩ := hO _ v ⟨hv, hl, Nat.le_refl _⟩
  exact h a w

theorem payload {x y : Str} {T : RTy} {us : List (Str × RTy)} (h : In (.path0 x)) (hm : .enum x us ∈ crateItems) (hy : (y, T) ∈ us)
    (hx : x ≠ c!"RecordKeyType") : In T := by
  intro v hv hl
  refine (h (.variant x y v) (.variant hm hy hv) fun u hu => ?_).of (.variant .refl)
  cases hu with
  | refl =>
    constructor
    case key => intro n w e; cases e; exact absurd rfl hx
    all_goals intro _ e; cases e
  | variant hu => exact hl u hu

/-! ## Definitions around an AST -/

theorem wfA : WfName c!"A" := word_iff.2 ⟨'A', [], rfl, by decide, by simp⟩

theorem fInterfaceMembers (ms : List InterfaceMember) (h : ∀ m ∈ ms, WfInterfaceMember m) : Found (.list (ms.map interfaceMemberVal)) :=
  ⟨.interface none c!"A" none ms, ⟨⟨trivial, wfA, h⟩, trivial⟩, .variant (inField c!"members" rfl (inField c!"body" rfl .refl))⟩

theorem fMixinMembers (ms : List MixinMember) (h : ∀ m ∈ ms, WfMixinMember m) : Found (.list (ms.map mixinMemberVal)) :=
  ⟨.interfaceMixin none c!"A" ms, ⟨trivial, wfA, h⟩, .variant (inField c!"members" rfl (inField c!"body" rfl .refl))⟩

theorem fNamespaceMembers (ms : List NamespaceMember) (h : ∀ m ∈ ms, WfNamespaceMember m) : Found (.list (ms.map namespaceMemberVal)) :=
  ⟨.namespace none c!"A" ms, ⟨trivial, wfA, h⟩, .variant (inField c!"members" rfl (inField c!"body" rfl .refl))⟩

theorem fDictionaryMembers (ms : List DictionaryMember) (h : ∀ m ∈ ms, WfDictionaryMember m) : Found (.list (ms.map dictionaryMemberVal)) :=
  ⟨.dictionary none c!"A" none ms, ⟨⟨trivial, wfA, h⟩, trivial⟩, .variant (inField c!"members" rfl (inField c!"body" rfl .refl))⟩

theorem fInterfaceMember (m : InterfaceMember) (h : WfInterfaceMember m) : Found (interfaceMemberVal m) :=
  (fInterfaceMembers [m] (by simpa using h)).of (.list (by simp) .refl)

theorem fMixinMember (m : MixinMember) (h : WfMixinMember m) : Found (mixinMemberVal m) :=
  (fMixinMembers [m] (by simpa using h)).of (.list (by simp) .refl)

theorem fNamespaceMember (m : NamespaceMember) (h : WfNamespaceMember m) : Found (namespaceMemberVal m) :=
  (fNamespaceMembers [m] (by simpa using h)).of (.list (by simp) .refl)

theorem fDictionaryMember (m : DictionaryMember) (h : WfDictionaryMember m) : Found (dictionaryMemberVal m) :=
  (fDictionaryMembers [m] (by simpa using h)).of (.list (by simp) .refl)

theorem fAttributedType (t : AttributedType) (h : WfAttributedType t) : Found (attributedTypeVal t) :=
  ⟨.typedef none t c!"A", ⟨trivial, h, wfA⟩, .variant (inField c!"type_" rfl .refl)⟩

theorem fName (i : Str) (h : WfName i) : Found (identVal i) :=
  ⟨.typedef none (.mk none (.single .any)) i, ⟨trivial, ⟨trivial, trivial⟩, h⟩, .variant (inField c!"identifier" rfl .refl)⟩

theorem fExtAttrs (as : List ExtAttr) (h : ∀ a ∈ as, WfExtAttr a) : Found (bracketVal (punctuatedVal (punctVal .comma) (as.map extAttrVal))) :=
  ⟨.typedef (some as) (.mk none (.single .any)) c!"A", ⟨(wfExtAttrs_iff _).2 h, ⟨trivial, trivial⟩, wfA⟩,
    .variant (inField c!"attributes" rfl (.some (by rw [← extAttrVals_eq as]; exact .refl)))⟩

theorem fExtAttr (a : ExtAttr) (h : WfExtAttr a) : Found (extAttrVal a) :=
  (fExtAttrs [a] (by simpa using h)).of (inField c!"body" rfl (inField c!"list" rfl (.list (by simp) .refl)))

theorem fArguments (as : List Argument) (h : ∀ a ∈ as, WfArgument a) : Found (punctuatedVal (punctVal .comma) (as.map argumentVal)) :=
  ⟨.callback none c!"A" .undefined as, ⟨trivial, wfA, trivial, (wfArguments_iff _).2 h⟩,
    .variant (inField c!"arguments" rfl (inField c!"body" rfl (by rw [← argumentVals_eq as]; exact .refl)))⟩

theorem fArgument (a : Argument) (h : WfArgument a) : Found (argumentVal a) :=
  (fArguments [a] (by simpa using h)).of (inField c!"list" rfl (.list (by simp) .refl))

theorem fReturnType (r : ReturnType) (h : WfReturnType r) : Found (returnTypeVal r) :=
  ⟨.callback none c!"A" r [], ⟨trivial, wfA, h, trivial⟩, .variant (inField c!"return_type" rfl .refl)⟩

theorem fType (t : Ty) (h : WfType t) : Found (typeVal t) :=
  (fAttributedType (.mk none t) ⟨trivial, h⟩).of (inField c!"type_" rfl .refl)

theorem fSingleType (t : SingleType) (h : WfSingleType t) : Found (singleTypeVal t) := (fType (.single t) h).of (.variant .refl)

theorem fNonAnyType (t : NonAnyType) (h : WfNonAnyType t) : Found (nonAnyTypeVal t) := (fSingleType (.nonAny t) h).of (.variant .refl)

theorem fUnionType (ms : List UnionMember) (h : ∀ m ∈ ms, WfUnionMember m) : Found (parenVal (punctuatedVal (kwVal .or) (ms.map unionMemberVal))) :=
  (fType (.union ms false) ((wfUnionMembers_iff _).2 h)).of (.variant (inField c!"type_" rfl (by rw [← unionMemberVals_eq ms]; exact .refl)))

theorem fUnionMember (m : UnionMember) (h : WfUnionMember m) : Found (unionMemberVal m) :=
  (fUnionType [m] (by simpa using h)).of (inField c!"body" rfl (inField c!"list" rfl (.list (by simp) .refl)))

theorem fRecordType (k : RecordKeyType) (v : Ty) (h : WfRecordKeyType k ∧ WfType v) : Found (.struct c!"RecordType"
    [(c!"record", kwVal .record), (c!"generics", genericsVal (.triple (.box (recordKeyTypeVal k)) (punctVal .comma) (.box (typeVal v))))]) :=
  (fNonAnyType (.record k v false) h).of (.variant (inField c!"type_" rfl .refl))

theorem fRecordKeyType (k : RecordKeyType) (h : WfRecordKeyType k) : Found (recordKeyTypeVal k) :=
  (fRecordType k (.single .any) ⟨h, trivial⟩).of (inField c!"generics" rfl (inField c!"body" rfl (.triple1 (.box .refl))))

theorem fIntegerType (t : IntegerType) : Found (integerTypeVal t) :=
  (fNonAnyType (.integer t false) trivial).of (.variant (inField c!"type_" rfl .refl))

theorem fFloatingPointType (t : FloatingPointType) : Found (floatingPointTypeVal t) :=
  (fNonAnyType (.floatingPoint t false) trivial).of (.variant (inField c!"type_" rfl .refl))

theorem fDefault (d : DefaultValue) (h : WfDefaultValue d) : Found (defaultVal d) :=
  (fDictionaryMember ⟨none, false, .single .any, c!"A", some d⟩ ⟨trivial, trivial, wfA, h⟩).of (inField c!"default" rfl (.some .refl))

theorem fDefaultValue (d : DefaultValue) (h : WfDefaultValue d) : Found (defaultValueVal d) :=
  (fDefault d h).of (inField c!"value" rfl .refl)

theorem fConst (m : ConstMember) (h : WfConst m) : Found (constVal c!"ConstMember" m) :=
  (fInterfaceMember (.const m) h).of (.variant .refl)

theorem fConstValue (v : ConstValue) (h : WfConstValue v) : Found (constValueVal v) :=
  (fConst ⟨none, .byte false, c!"A", v⟩ ⟨trivial, trivial, wfA, h⟩).of (inField c!"const_value" rfl .refl)

theorem fConstType (t : ConstType) (h : WfConstType t) : Found (constTypeVal t) :=
  (fConst ⟨none, t, c!"A", .null⟩ ⟨trivial, h, wfA, trivial⟩).of (inField c!"const_type" rfl .refl)

theorem fOperation (s : Option StringifierOrStatic) (x : Option Special) : Found (operationInterfaceMemberVal ⟨none, s, x, .undefined, none, []⟩) :=
  (fInterfaceMember (.operation ⟨none, s, x, .undefined, none, []⟩) ⟨trivial, trivial, trivial, trivial⟩).of (.variant .refl)

theorem fEnumValues (vs : List Str) (h : (∀ v ∈ vs, WfString v) ∧ vs ≠ []) : Found (punctuatedNonEmptyVal (punctVal .comma) (vs.map stringVal)) :=
  ⟨.enum none c!"A" vs, ⟨⟨trivial, wfA, h.1⟩, h.2⟩, .variant (inField c!"values" rfl (inField c!"body" rfl .refl))⟩

theorem fInteger (i : IntegerLit) (h : WfInteger i) : Found (integerLitVal i) := (fDefaultValue (.integer i) h).of (.variant .refl)

theorem fFloat (i : FloatLit) (h : WfFloat i) : Found (floatLitVal i) := (fDefaultValue (.float i) h).of (.variant .refl)

/-! ## All types -/

theorem inArgumentList : In (.path0 c!"ArgumentList") :=
  onto (fun n => argumentList n) (fArguments)

theorem inArgument : In (.path0 c!"Argument") :=
  onto (fun n => (block n).arg) (fArgument)

theorem inSingleArgument : In (.path0 c!"SingleArgument") :=
  payload inArgument mArgument (y := c!"Single") (by decide) (by decide)

theorem inVariadicArgument : In (.path0 c!"VariadicArgument") :=
  payload inArgument mArgument (y := c!"Variadic") (by decide) (by decide)

theorem inExtendedAttributeList : In (.path0 c!"ExtendedAttributeList") :=
  onto (fun n => extAttrList n) (fExtAttrs)

theorem inIdentifierList : In (.path0 c!"IdentifierList") :=
  onto (fun n => identList n) (fun is h => (fExtAttr (.identList c!"A" is) ⟨wfA, h⟩).of (.variant (inField c!"list" rfl (inField c!"body" rfl .refl))))

theorem inExtendedAttribute : In (.path0 c!"ExtendedAttribute") :=
  onto (fun n => (block n).attr) (fExtAttr)

theorem inExtendedAttributeArgList : In (.path0 c!"ExtendedAttributeArgList") :=
  payload inExtendedAttribute mExtendedAttribute (y := c!"ArgList") (by decide) (by decide)

theorem inExtendedAttributeNamedArgList : In (.path0 c!"ExtendedAttributeNamedArgList") :=
  payload inExtendedAttribute mExtendedAttribute (y := c!"NamedArgList") (by decide) (by decide)

theorem inExtendedAttributeIdentList : In (.path0 c!"ExtendedAttributeIdentList") :=
  payload inExtendedAttribute mExtendedAttribute (y := c!"IdentList") (by decide) (by decide)

theorem inExtendedAttributeIdent : In (.path0 c!"ExtendedAttributeIdent") :=
  payload inExtendedAttribute mExtendedAttribute (y := c!"Ident") (by decide) (by decide)

theorem inExtendedAttributeWildCard : In (.path0 c!"ExtendedAttributeWildCard") :=
  payload inExtendedAttribute mExtendedAttribute (y := c!"Wildcard") (by decide) (by decide)

theorem inExtendedAttributeNoArgs : In (.path0 c!"ExtendedAttributeNoArgs") :=
  payload inExtendedAttribute mExtendedAttribute (y := c!"NoArgs") (by decide) (by decide)

theorem inIdentifierOrString : In (.path0 c!"IdentifierOrString") :=
  onto (idOrString) (fun r h => (fExtAttr (.ident c!"A" r) ⟨wfA, h⟩).of (.variant (inField c!"rhs" rfl .refl)))

theorem inIdentifier : In (.path0 c!"Identifier") :=
  onto (ident) (fName)

theorem inDefault : In (.path0 c!"Default") :=
  onto (default) (fDefault)

theorem inDictionaryMembers : In (.path0 c!"DictionaryMembers") :=
  onto (fun _ v h => vec dictionaryMember v (h.alias mDictionaryMembers)) (fDictionaryMembers)

theorem inDictionaryMember : In (.path0 c!"DictionaryMember") :=
  onto (fun _ => dictionaryMember) (fDictionaryMember)

theorem inInterfaceMembers : In (.path0 c!"InterfaceMembers") :=
  onto (fun _ v h => vec interfaceMember v (h.alias mInterfaceMembers)) (fInterfaceMembers)

theorem inInheritance : In (.path0 c!"Inheritance") :=
  onto (fun _ => inheritance) (fun i h => ⟨.interface none c!"A" (some i) [], ⟨⟨trivial, wfA, by simp⟩, h⟩, .variant (inField c!"inheritance" rfl (.some .refl))⟩)

theorem inInterfaceMember : In (.path0 c!"InterfaceMember") :=
  onto (fun _ => interfaceMember) (fInterfaceMember)

theorem inConstMember : In (.path0 c!"ConstMember") :=
  payload inInterfaceMember mInterfaceMember (y := c!"Const") (by decide) (by decide)

theorem inAttributeInterfaceMember : In (.path0 c!"AttributeInterfaceMember") :=
  payload inInterfaceMember mInterfaceMember (y := c!"Attribute") (by decide) (by decide)

theorem inConstructorInterfaceMember : In (.path0 c!"ConstructorInterfaceMember") :=
  payload inInterfaceMember mInterfaceMember (y := c!"Constructor") (by decide) (by decide)

theorem inOperationInterfaceMember : In (.path0 c!"OperationInterfaceMember") :=
  payload inInterfaceMember mInterfaceMember (y := c!"Operation") (by decide) (by decide)

theorem inIterableInterfaceMember : In (.path0 c!"IterableInterfaceMember") :=
  payload inInterfaceMember mInterfaceMember (y := c!"Iterable") (by decide) (by decide)

theorem inSingleTypedIterable : In (.path0 c!"SingleTypedIterable") :=
  payload inIterableInterfaceMember mIterableInterfaceMember (y := c!"Single") (by decide) (by decide)

theorem inDoubleTypedIterable : In (.path0 c!"DoubleTypedIterable") :=
  payload inIterableInterfaceMember mIterableInterfaceMember (y := c!"Double") (by decide) (by decide)

theorem inAsyncIterableInterfaceMember : In (.path0 c!"AsyncIterableInterfaceMember") :=
  payload inInterfaceMember mInterfaceMember (y := c!"AsyncIterable") (by decide) (by decide)

theorem inSingleTypedAsyncIterable : In (.path0 c!"SingleTypedAsyncIterable") :=
  payload inAsyncIterableInterfaceMember mAsyncIterableInterfaceMember (y := c!"Single") (by decide) (by decide)

theorem inDoubleTypedAsyncIterable : In (.path0 c!"DoubleTypedAsyncIterable") :=
  payload inAsyncIterableInterfaceMember mAsyncIterableInterfaceMember (y := c!"Double") (by decide) (by decide)

theorem inMaplikeInterfaceMember : In (.path0 c!"MaplikeInterfaceMember") :=
  payload inInterfaceMember mInterfaceMember (y := c!"Maplike") (by decide) (by decide)

theorem inSetlikeInterfaceMember : In (.path0 c!"SetlikeInterfaceMember") :=
  payload inInterfaceMember mInterfaceMember (y := c!"Setlike") (by decide) (by decide)

theorem inStringifierMember : In (.path0 c!"StringifierMember") :=
  payload inInterfaceMember mInterfaceMember (y := c!"Stringifier") (by decide) (by decide)

theorem inSpecial : In (.path0 c!"Special") :=
  onto (fun _ => special) (fun x _ => (fOperation none (some x)).of (inField c!"special" rfl (.some .refl)))

theorem inStringifierOrInheritOrStatic : In (.path0 c!"StringifierOrInheritOrStatic") :=
  onto (fun _ => stringifierOrInheritOrStatic) (fun x _ =>
    (fInterfaceMember (.attribute ⟨none, some x, false, .mk none (.single .any), c!"A"⟩) ⟨trivial, ⟨trivial, trivial⟩, wfA⟩).of
      (.variant (inField c!"modifier" rfl (.some .refl))))

theorem inStringifierOrStatic : In (.path0 c!"StringifierOrStatic") :=
  onto (fun _ => stringifierOrStatic) (fun x _ => (fOperation (some x) none).of (inField c!"modifier" rfl (.some .refl)))

theorem inDefinition : In (.path0 c!"Definition") :=
  onto (fun _ => definition) (fun d h => ⟨d, h, .refl⟩)

theorem inCallbackDefinition : In (.path0 c!"CallbackDefinition") :=
  payload inDefinition mDefinition (y := c!"Callback") (by decide) (by decide)

theorem inCallbackInterfaceDefinition : In (.path0 c!"CallbackInterfaceDefinition") :=
  payload inDefinition mDefinition (y := c!"CallbackInterface") (by decide) (by decide)

theorem inInterfaceDefinition : In (.path0 c!"InterfaceDefinition") :=
  payload inDefinition mDefinition (y := c!"Interface") (by decide) (by decide)

theorem inInterfaceMixinDefinition : In (.path0 c!"InterfaceMixinDefinition") :=
  payload inDefinition mDefinition (y := c!"InterfaceMixin") (by decide) (by decide)

theorem inNamespaceDefinition : In (.path0 c!"NamespaceDefinition") :=
  payload inDefinition mDefinition (y := c!"Namespace") (by decide) (by decide)

theorem inDictionaryDefinition : In (.path0 c!"DictionaryDefinition") :=
  payload inDefinition mDefinition (y := c!"Dictionary") (by decide) (by decide)

theorem inPartialInterfaceDefinition : In (.path0 c!"PartialInterfaceDefinition") :=
  payload inDefinition mDefinition (y := c!"PartialInterface") (by decide) (by decide)

theorem inPartialInterfaceMixinDefinition : In (.path0 c!"PartialInterfaceMixinDefinition") :=
  payload inDefinition mDefinition (y := c!"PartialInterfaceMixin") (by decide) (by decide)

theorem inPartialDictionaryDefinition : In (.path0 c!"PartialDictionaryDefinition") :=
  payload inDefinition mDefinition (y := c!"PartialDictionary") (by decide) (by decide)

theorem inPartialNamespaceDefinition : In (.path0 c!"PartialNamespaceDefinition") :=
  payload inDefinition mDefinition (y := c!"PartialNamespace") (by decide) (by decide)

theorem inEnumDefinition : In (.path0 c!"EnumDefinition") :=
  payload inDefinition mDefinition (y := c!"Enum") (by decide) (by decide)

theorem inTypedefDefinition : In (.path0 c!"TypedefDefinition") :=
  payload inDefinition mDefinition (y := c!"Typedef") (by decide) (by decide)

theorem inIncludesStatementDefinition : In (.path0 c!"IncludesStatementDefinition") :=
  payload inDefinition mDefinition (y := c!"IncludesStatement") (by decide) (by decide)

theorem inImplementsDefinition : In (.path0 c!"ImplementsDefinition") :=
  payload inDefinition mDefinition (y := c!"Implements") (by decide) (by decide)

theorem inEnumValueList : In (.path0 c!"EnumValueList") :=
  onto (fun n => enumValues n) (fEnumValues)

theorem inIntegerLit : In (.path0 c!"IntegerLit") :=
  onto (integerLit) (fInteger)

theorem inDecLit : In (.path0 c!"DecLit") :=
  payload inIntegerLit mIntegerLit (y := c!"Dec") (by decide) (by decide)

theorem inHexLit : In (.path0 c!"HexLit") :=
  payload inIntegerLit mIntegerLit (y := c!"Hex") (by decide) (by decide)

theorem inOctLit : In (.path0 c!"OctLit") :=
  payload inIntegerLit mIntegerLit (y := c!"Oct") (by decide) (by decide)

theorem inDefaultValue : In (.path0 c!"DefaultValue") :=
  onto (defaultValue) (fDefaultValue)

theorem inStringLit : In (.path0 c!"StringLit") :=
  payload inDefaultValue mDefaultValue (y := c!"String") (by decide) (by decide)

theorem inEmptyArrayLit : In (.path0 c!"EmptyArrayLit") :=
  payload inDefaultValue mDefaultValue (y := c!"EmptyArray") (by decide) (by decide)

theorem inEmptyDictionaryLit : In (.path0 c!"EmptyDictionaryLit") :=
  payload inDefaultValue mDefaultValue (y := c!"EmptyDictionary") (by decide) (by decide)

theorem inConstValue : In (.path0 c!"ConstValue") :=
  onto (constValue) (fConstValue)

theorem inBooleanLit : In (.path0 c!"BooleanLit") :=
  payload inDefaultValue mDefaultValue (y := c!"Boolean") (by decide) (by decide)

theorem inFloatLit : In (.path0 c!"FloatLit") :=
  onto (floatLit) (fFloat)

theorem inFloatValueLit : In (.path0 c!"FloatValueLit") :=
  payload inFloatLit mFloatLit (y := c!"Value") (by decide) (by decide)

theorem inMixinMembers : In (.path0 c!"MixinMembers") :=
  onto (fun _ v h => vec mixinMember v (h.alias mMixinMembers)) (fMixinMembers)

theorem inMixinMember : In (.path0 c!"MixinMember") :=
  onto (fun _ => mixinMember) (fMixinMember)

theorem inOperationMixinMember : In (.path0 c!"OperationMixinMember") :=
  payload inMixinMember mMixinMember (y := c!"Operation") (by decide) (by decide)

theorem inAttributeMixinMember : In (.path0 c!"AttributeMixinMember") :=
  payload inMixinMember mMixinMember (y := c!"Attribute") (by decide) (by decide)

theorem inNamespaceMembers : In (.path0 c!"NamespaceMembers") :=
  onto (fun _ v h => vec namespaceMember v (h.alias mNamespaceMembers)) (fNamespaceMembers)

theorem inNamespaceMember : In (.path0 c!"NamespaceMember") :=
  onto (fun _ => namespaceMember) (fNamespaceMember)

theorem inConstNamespaceMember : In (.path0 c!"ConstNamespaceMember") :=
  payload inNamespaceMember mNamespaceMember (y := c!"Const") (by decide) (by decide)

theorem inOperationNamespaceMember : In (.path0 c!"OperationNamespaceMember") :=
  payload inNamespaceMember mNamespaceMember (y := c!"Operation") (by decide) (by decide)

theorem inAttributeNamespaceMember : In (.path0 c!"AttributeNamespaceMember") :=
  payload inNamespaceMember mNamespaceMember (y := c!"Attribute") (by decide) (by decide)

theorem inUnionType : In (.path0 c!"UnionType") :=
  onto (fun n => unionType n) (fUnionType)

theorem inType : In (.path0 c!"Type") :=
  onto (fun n => (block n).type) (fType)

theorem inSingleType : In (.path0 c!"SingleType") :=
  onto (fun n => (single (block n)).of_succ) (fSingleType)

theorem inNonAnyType : In (.path0 c!"NonAnyType") :=
  onto (fun n => (nonAny (block n)).of_succ) (fNonAnyType)

theorem inSequenceType : In (.path0 c!"SequenceType") :=
  onto (fun n => sequenceType n) (fun t h => (fNonAnyType (.sequence t false) h).of (.variant (inField c!"type_" rfl .refl)))

theorem inFrozenArrayType : In (.path0 c!"FrozenArrayType") :=
  onto (fun n => frozenArrayType n) (fun t h => (fNonAnyType (.frozenArray t false) h).of (.variant (inField c!"type_" rfl .refl)))

theorem inPromiseType : In (.path0 c!"PromiseType") :=
  payload inNonAnyType mNonAnyType (y := c!"Promise") (by decide) (by decide)

theorem inIntegerType : In (.path0 c!"IntegerType") :=
  onto (integerType) (fun t _ => fIntegerType t)

theorem inLongLongType : In (.path0 c!"LongLongType") :=
  payload inIntegerType mIntegerType (y := c!"LongLong") (by decide) (by decide)

theorem inLongType : In (.path0 c!"LongType") :=
  payload inIntegerType mIntegerType (y := c!"Long") (by decide) (by decide)

theorem inShortType : In (.path0 c!"ShortType") :=
  payload inIntegerType mIntegerType (y := c!"Short") (by decide) (by decide)

theorem inFloatingPointType : In (.path0 c!"FloatingPointType") :=
  onto (floatingPointType) (fun t _ => fFloatingPointType t)

theorem inFloatType : In (.path0 c!"FloatType") :=
  payload inFloatingPointType mFloatingPointType (y := c!"Float") (by decide) (by decide)

theorem inDoubleType : In (.path0 c!"DoubleType") :=
  payload inFloatingPointType mFloatingPointType (y := c!"Double") (by decide) (by decide)

theorem inRecordType : In (.path0 c!"RecordType") :=
  onto (fun n => recordType n) (fun kv h => fRecordType kv.1 kv.2 h)

theorem inRecordKeyType : In (.path0 c!"RecordKeyType") :=
  onto (fun n => (block n).key) (fRecordKeyType)

theorem inUnionMemberType : In (.path0 c!"UnionMemberType") :=
  onto (fun n => (block n).member) (fUnionMember)

theorem inConstType : In (.path0 c!"ConstType") :=
  onto (fun _ => constType) (fConstType)

theorem inReturnType : In (.path0 c!"ReturnType") :=
  onto (fun n => (block n).ret) (fReturnType)

theorem inAttributedType : In (.path0 c!"AttributedType") :=
  onto (fun n => (attributedType (block n)).of_succ) (fAttributedType)

theorem inAttributedNonAnyType : In (.path0 c!"AttributedNonAnyType") :=
  payload inUnionMemberType mUnionMemberType (y := c!"Single") (by decide) (by decide)

theorem in_simple : ∀ n ∈ simpleNames, n ≠ c!"Definitions" → In (.path0 n) := by
  simp only [simpleNames, List.forall_mem_cons]
  exact ⟨fun _ => inArgumentList, fun _ => inArgument, fun _ => inSingleArgument, fun _ => inVariadicArgument, fun _ => inExtendedAttributeList, fun _ => inIdentifierList, fun _ => inExtendedAttribute, fun _ => inExtendedAttributeArgList, fun _ => inExtendedAttributeNamedArgList, fun _ => inExtendedAttributeIdentList, fun _ => inExtendedAttributeIdent, fun _ => inExtendedAttributeWildCard, fun _ => inExtendedAttributeNoArgs, fun _ => inIdentifierOrString, fun _ => inIdentifier, fun _ => inDefault, fun _ => inDictionaryMembers, fun _ => inDictionaryMember, fun _ => inInterfaceMembers, fun _ => inInheritance, fun _ => inInterfaceMember, fun _ => inConstMember, fun _ => inAttributeInterfaceMember, fun _ => inConstructorInterfaceMember, fun _ => inOperationInterfaceMember, fun _ => inIterableInterfaceMember, fun _ => inSingleTypedIterable, fun _ => inDoubleTypedIterable, fun _ => inAsyncIterableInterfaceMember, fun _ => inSingleTypedAsyncIterable, fun _ => inDoubleTypedAsyncIterable, fun _ => inMaplikeInterfaceMember, fun _ => inSetlikeInterfaceMember, fun _ => inStringifierMember, fun _ => inSpecial, fun _ => inStringifierOrInheritOrStatic, fun _ => inStringifierOrStatic, fun h => absurd rfl h, fun _ => inDefinition, fun _ => inCallbackDefinition, fun _ => inCallbackInterfaceDefinition, fun _ => inInterfaceDefinition, fun _ => inInterfaceMixinDefinition, fun _ => inNamespaceDefinition, fun _ => inDictionaryDefinition, fun _ => inPartialInterfaceDefinition, fun _ => inPartialInterfaceMixinDefinition, fun _ => inPartialDictionaryDefinition, fun _ => inPartialNamespaceDefinition, fun _ => inEnumDefinition, fun _ => inTypedefDefinition, fun _ => inIncludesStatementDefinition, fun _ => inImplementsDefinition, fun _ => inEnumValueList, fun _ => inIntegerLit, fun _ => inDecLit, fun _ => inHexLit, fun _ => inOctLit, fun _ => inStringLit, fun _ => inDefaultValue, fun _ => inEmptyArrayLit, fun _ => inEmptyDictionaryLit, fun _ => inConstValue, fun _ => inBooleanLit, fun _ => inFloatLit, fun _ => inFloatValueLit, fun _ => inMixinMembers, fun _ => inMixinMember, fun _ => inOperationMixinMember, fun _ => inAttributeMixinMember, fun _ => inNamespaceMembers, fun _ => inNamespaceMember, fun _ => inConstNamespaceMember, fun _ => inOperationNamespaceMember, fun _ => inAttributeNamespaceMember, fun _ => inUnionType, fun _ => inType, fun _ => inSingleType, fun _ => inNonAnyType, fun _ => inSequenceType, fun _ => inFrozenArrayType, fun _ => inPromiseType, fun _ => inIntegerType, fun _ => inLongLongType, fun _ => inLongType, fun _ => inShortType, fun _ => inFloatingPointType, fun _ => inFloatType, fun _ => inDoubleType, fun _ => inRecordType, fun _ => inRecordKeyType, fun _ => inUnionMemberType, fun _ => inConstType, fun _ => inReturnType, fun _ => inAttributedType, fun _ => inAttributedNonAnyType, fun _ h => nomatch h⟩

/-! ## Tokens -/

/-- The tokens in a value, to the depth `n`. -/
def tokens : Nat → Val → List Str
  | 0, _ => []
  | _ + 1, .token x => [x]
  | n + 1, .pair a b => tokens n a ++ tokens n b
  | n + 1, .triple a b c => tokens n a ++ (tokens n b ++ tokens n c)
  | n + 1, .some v | n + 1, .box v | n + 1, .newtype _ v | n + 1, .variant _ _ v => tokens n v
  | n + 1, .list vs => vs.flatMap (tokens n)
  | n + 1, .struct _ vs => vs.flatMap fun p => tokens n p.2
  | _ + 1, _ => []

theorem tokens_part {x : Str} : ∀ {n : Nat} {v : Val}, x ∈ tokens n v → Part (.token x) v
  | n + 1, .token y, h => by
    cases List.mem_singleton.1 h
    exact .refl
  | n + 1, .pair a b, h => (List.mem_append.1 h).elim (fun h => .pair1 (tokens_part h)) fun h => .pair2 (tokens_part h)
  | n + 1, .triple a b c, h => (List.mem_append.1 h).elim (fun h => .triple1 (tokens_part h)) fun h =>
    (List.mem_append.1 h).elim (fun h => .triple2 (tokens_part h)) fun h => .triple3 (tokens_part h)
  | n + 1, .some v, h => .some (tokens_part (n := n) h)
  | n + 1, .box v, h => .box (tokens_part (n := n) h)
  | n + 1, .newtype _ v, h => .newtype (tokens_part (n := n) h)
  | n + 1, .variant _ _ v, h => .variant (tokens_part (n := n) h)
  | n + 1, .list vs, h => by
    obtain ⟨v, hv, h⟩ := List.mem_flatMap.1 h
    exact .list hv (tokens_part h)
  | n + 1, .struct _ vs, h => by
    obtain ⟨p, hp, h⟩ := List.mem_flatMap.1 h
    exact .struct hp (tokens_part h)

def tType (t : NonAnyType) : Definition := .typedef none (.mk none (.single (.nonAny t))) c!"A"

def tDefault (v : DefaultValue) : DictionaryMember := ⟨none, true, .single .any, c!"A", some v⟩

def tOperation (m : Option StringifierOrStatic) (x : Option Special) : InterfaceMember := .operation ⟨none, m, x, .undefined, none, []⟩

/-- Definitions in which every token occurs that occurs in a document. -/
def sample : List Definition :=
  [.callback none c!"A" .undefined [.variadic none (.single .any) c!"A", .single none true (.mk none (.single .any)) c!"A" none],
   .interface none c!"A" (some c!"A") [.const ⟨none, .byte false, c!"A", .null⟩, .attribute ⟨none, some .inherit, true, .mk none (.single .any), c!"A"⟩,
    .constructor ⟨none, []⟩, tOperation (some .static) none, tOperation none (some .getter), tOperation none (some .setter),
    tOperation none (some .deleter), tOperation none (some .legacyCaller), .asyncIterable (.single none (.mk none (.single .any)) none),
    .maplike ⟨none, false, .mk none (.single .any), .mk none (.single .any)⟩, .setlike ⟨none, false, .mk none (.single .any)⟩, .stringifier ⟨none⟩],
   .partialInterfaceMixin none c!"A" [], .namespace none c!"A" [], .enum none c!"A" [[]],
   .dictionary none c!"A" none [tDefault .null, tDefault .emptyArray, tDefault (.float .infinity), tDefault (.float .negInfinity), tDefault (.float .nan)],
   .includesStatement none c!"A" c!"A", .implements none c!"A" c!"A",
   .typedef (some [.wildcard c!"A"]) (.mk none (.union [] false)) c!"A",
   tType (.promise .undefined), tType (.integer (.longLong true) true), tType (.integer (.short false) false),
   tType (.floatingPoint (.float true) false), tType (.floatingPoint (.double true) false), tType (.sequence (.single .any) false),
   tType (.frozenArray (.single .any) false), tType (.record .dom (.single .any) false)] ++
  ([.boolean, .byte, .octet, .byteString, .domString, .usvString, .object, .symbol, .error, .arrayBuffer, .dataView, .int8Array, .int16Array,
    .int32Array, .uint8Array, .uint16Array, .uint32Array, .uint8ClampedArray, .float32Array, .float64Array, .arrayBufferView, .bufferSource].map
      fun b => tType (.builtin b false))

theorem wf_sample : ∀ d ∈ sample, WfDefinition d := by
  have := wfA
  simp [sample, tType, tDefault, tOperation, WfDefinition, WfBody, WfAttribute, WfOperation, WfOptName, WfConst, WfInterfaceMember,
    WfDictionaryMember, WfAttributes, WfArguments, WfArgument, WfAttributedType, WfType, WfSingleType, WfNonAnyType, WfReturnType, WfConstType,
    WfConstValue, WfDefault, WfDefaultValue, WfFloat, WfString, WfTypePair, WfOptArguments, WfExtAttrs, WfExtAttr, WfUnionMembers, WfRecordKeyType, this]

/-- The tokens that occur in no document. `/repo/src/term.rs:78,81,218,242`, `/repo/src/literal.rs:84-89`. -/
def unused : List Str := [c!"Minus", c!"Dot", c!"True", c!"False"]

theorem in_token {x : Str} (h : x ∈ tokens 30 (.list (sample.map definitionVal))) : Found (.token x) := by
  have : Part (.token x) (.list (sample.map definitionVal)) := tokens_part h
  cases this with
  | list hv h =>
    obtain ⟨d, hd, rfl⟩ := List.mem_map.1 hv
    exact ⟨d, wf_sample d hd, h⟩

theorem kw_found : ∀ k ∈ kws, kwType k ∉ unused → kwType k ∈ tokens 30 (.list (sample.map definitionVal)) := by decide +kernel

theorem punct_found : ∀ k ∈ puncts, punctType k ∉ unused → punctType k ∈ tokens 30 (.list (sample.map definitionVal)) := by decide +kernel

theorem in_all {x : Str} (h : WellFormed decls (.path0 x)) (hu : x ∉ unused) (hx : x ≠ c!"Definitions") : In (.path0 x) := by
  obtain ⟨hs, d, hd, rfl, hp⟩ := h
  rcases simple_names d hd hp hs with h | h | h
  · exact in_simple _ h hx
  · obtain ⟨p, hp, e⟩ := List.mem_map.1 h
    rw [← e] at hu ⊢
    exact onto (fun _ _ h => ⟨(), punct p h, trivial⟩) (W := fun _ => True) fun _ _ => in_token (punct_found p hp hu)
  · obtain ⟨k, hk, e⟩ := List.mem_map.1 h
    rw [← e] at hu ⊢
    exact onto (fun _ _ h => ⟨(), kw k h, trivial⟩) (W := fun _ => True) fun _ _ => in_token (kw_found k hk hu)

/-! ## The tokens that occur in no document -/

def names : RTy → List Str
  | .path0 n => [n]
  | .path1 n t => n :: names t
  | .path2 n t u => n :: (names t ++ names u)
  | .path3 n t u v => n :: (names t ++ (names u ++ names v))

/-- The names in the types that a declaration refers to. -/
def mentioned : Item → List Str
  | .struct _ _ fs => fs.flatMap fun p => names p.2
  | .enum _ vs => vs.flatMap fun p => names p.2
  | .alias _ T | .tuple _ _ T => names T
  | _ => []

theorem assign_mem {x : Str} {U : RTy} : ∀ {ps : List Str} {ts : List RTy}, assign ps ts x = some U → U ∈ ts
  | p :: ps, t :: ts, h => by
    simp only [assign] at h
    split at h
    · cases h; exact .head _
    · exact .tail _ (assign_mem h)
  | [], _, h => by simp [assign] at h
  | _ :: _, [], h => by simp [assign] at h

theorem names_args {T U : RTy} (h : U ∈ T.args) {x : Str} (hx : x ∈ names U) : x ∈ names T := by
  cases T <;> simp only [RTy.args, List.mem_cons, List.not_mem_nil, or_false] at h
  · subst h; simp [names, hx]
  · rcases h with rfl | rfl <;> simp [names, hx]
  · rcases h with rfl | rfl | rfl <;> simp [names, hx]

theorem names_subst {x : Str} {ps : List Str} {T : RTy} : ∀ {t : RTy}, x ∈ names (t.subst (assign ps T.args)) → x ∈ names t ∨ x ∈ names T
  | .path0 n, h => by
    simp only [RTy.subst] at h
    cases e : assign ps T.args n with
    | none => rw [e] at h; exact .inl h
    | some U => rw [e] at h; exact .inr (names_args (assign_mem e) h)
  | .path1 n t, h => by
    simp only [RTy.subst, names, List.mem_cons] at h ⊢
    rcases h with h | h
    · exact .inl (.inl h)
    · exact (names_subst h).imp_left .inr
  | .path2 n t u, h => by
    simp only [RTy.subst, names, List.mem_cons, List.mem_append] at h ⊢
    rcases h with h | h | h
    · exact .inl (.inl h)
    · exact (names_subst h).imp_left (.inr ∘ .inl)
    · exact (names_subst h).imp_left (.inr ∘ .inr)
  | .path3 n t u v, h => by
    simp only [RTy.subst, names, List.mem_cons, List.mem_append] at h ⊢
    rcases h with h | h | h | h
    · exact .inl (.inl h)
    · exact (names_subst h).imp_left (.inr ∘ .inl)
    · exact (names_subst h).imp_left (.inr ∘ .inr ∘ .inl)
    · exact (names_subst h).imp_left (.inr ∘ .inr ∘ .inr)

/-- A token that occurs in a value of a type is named by the type or by a declaration. -/
theorem token_named {is : List Item} {T : RTy} {v : Val} (h : HasType is T v) {x : Str} (hx : Part (.token x) v) :
    x ∈ names T ∨ x ∈ is.flatMap mentioned := by
  induction h with
  | unit | str | char | bool | none => cases hx
  | some _ ih => cases hx with | some h => exact (ih h).imp_left fun h => by simp [names, h]
  | box _ ih => cases hx with | box h => exact (ih h).imp_left fun h => by simp [names, h]
  | list _ ih => cases hx with | list hm h => exact (ih _ hm h).imp_left fun h => by simp [names, h]
  | pair _ _ ih1 ih2 =>
    cases hx with
    | pair1 h => exact (ih1 h).imp_left fun h => by simp [names, h]
    | pair2 h => exact (ih2 h).imp_left fun h => by simp [names, h]
  | triple _ _ _ ih1 ih2 ih3 =>
    cases hx with
    | triple1 h => exact (ih1 h).imp_left fun h => by simp [names, h]
    | triple2 h => exact (ih2 h).imp_left fun h => by simp [names, h]
    | triple3 h => exact (ih3 h).imp_left fun h => by simp [names, h]
  | token _ => cases hx; exact .inl (by simp [names])
  | newtype hm _ ih => cases hx with | newtype h => exact .inr ((ih h).elim (fun h => List.mem_flatMap.2 ⟨_, hm, h⟩) id)
  | variant hm hy _ ih =>
    cases hx with
    | variant h => exact .inr ((ih h).elim (fun h => List.mem_flatMap.2 ⟨_, hm, List.mem_flatMap.2 ⟨_, hy, h⟩⟩) id)
  | alias hm _ ih => exact .inr ((ih hx).elim (fun h => List.mem_flatMap.2 ⟨_, hm, h⟩) id)
  | @struct T ps fs vs hm hp he _ ih =>
    cases hx with
    | struct hv h =>
      obtain ⟨i, hi, e⟩ := List.mem_iff_getElem.1 hv
      have hl : fs.length = vs.length := by simpa using (congrArg List.length he).symm
      have hz : (fs[i]'(by omega), vs[i]) ∈ fs.zip vs := List.mem_iff_getElem.2 ⟨i, by simp; omega, by simp⟩
      have := ih _ hz (by rw [e]; exact h)
      rcases this with h | h
      · rcases names_subst h with h | h
        · exact .inr (List.mem_flatMap.2 ⟨_, hm, List.mem_flatMap.2 ⟨_, List.getElem_mem _, h⟩⟩)
        · exact .inl h
      · exact .inr h

theorem unused_mentioned : ∀ x ∈ unused, x ∉ names (.path0 c!"Definitions") ∧ x ∉ crateItems.flatMap mentioned := by decide +kernel

/-! ## Variants -/

/-- The variants in a value, to the depth `n`. -/
def variants : Nat → Val → List (Str × Str)
  | 0, _ => []
  | n + 1, .variant x y v => (x, y) :: variants n v
  | n + 1, .pair a b => variants n a ++ variants n b
  | n + 1, .triple a b c => variants n a ++ (variants n b ++ variants n c)
  | n + 1, .some v | n + 1, .box v | n + 1, .newtype _ v => variants n v
  | n + 1, .list vs => vs.flatMap (variants n)
  | n + 1, .struct _ vs => vs.flatMap fun p => variants n p.2
  | _ + 1, _ => []

theorem variants_part {x y : Str} : ∀ {n : Nat} {v : Val}, (x, y) ∈ variants n v → ∃ w, Part (.variant x y w) v
  | n + 1, .variant x' y' v, h => by
    rcases List.mem_cons.1 h with h | h
    · cases h; exact ⟨_, .refl⟩
    · obtain ⟨w, h⟩ := variants_part (n := n) h
      exact ⟨w, .variant h⟩
  | n + 1, .pair a b, h => by
    rcases List.mem_append.1 h with h | h <;> obtain ⟨w, h⟩ := variants_part (n := n) h
    · exact ⟨w, .pair1 h⟩
    · exact ⟨w, .pair2 h⟩
  | n + 1, .triple a b c, h => by
    rcases List.mem_append.1 h with h | h
    · obtain ⟨w, h⟩ := variants_part (n := n) h
      exact ⟨w, .triple1 h⟩
    · rcases List.mem_append.1 h with h | h <;> obtain ⟨w, h⟩ := variants_part (n := n) h
      · exact ⟨w, .triple2 h⟩
      · exact ⟨w, .triple3 h⟩
  | n + 1, .some v, h => (variants_part (n := n) h).imp fun _ => .some
  | n + 1, .box v, h => (variants_part (n := n) h).imp fun _ => .box
  | n + 1, .newtype _ v, h => (variants_part (n := n) h).imp fun _ => .newtype
  | n + 1, .list vs, h => by
    obtain ⟨v, hv, h⟩ := List.mem_flatMap.1 h
    exact (variants_part h).imp fun _ => .list hv
  | n + 1, .struct _ vs, h => by
    obtain ⟨p, hp, h⟩ := List.mem_flatMap.1 h
    exact (variants_part h).imp fun _ => .struct hp

/-- Texts with every variant of every enum. -/
def texts : List Str :=
  [c!"callback A=undefined();", c!"callback interface A{};", c!"interface mixin A{const byte a=1;void();attribute any a;stringifier;};",
   c!"namespace A{const long a=1.0;void();readonly attribute any a;};", c!"partial interface A{};", c!"partial interface mixin A{};",
   c!"partial dictionary A{};", c!"partial namespace A{};", c!"enum A{\"\"};", c!"A includes B;", c!"A implements B;",
   c!"interface A{const float a=null;const boolean a=true;const octet a=0x1;const B a=01;};",
   c!"interface A{inherit attribute any a;static attribute any a;stringifier attribute any a;constructor();};",
   c!"interface A{static any();stringifier any();getter any();setter any();deleter any();legacycaller any();};",
   c!"interface A{iterable<any>;iterable<any,any>;maplike<any,any>;setlike<any>;stringifier;};",
   c!"interface A{async iterable<any>;async iterable<any,any>;};",
   c!"dictionary A{any a=true;any a=[];any a={};any a=Infinity;any a=-Infinity;any a=NaN;any a=1;any a=null;any a=\"\";};",
   c!"[A(any a),A=B(any...a),A=(B),A=B,A=\"\",A=*,A]typedef any A;",
   c!"typedef (long or byte)A;", c!"typedef (long or(long or long))A;", c!"typedef Promise<void>A;", c!"typedef sequence<long long>A;",
   c!"typedef FrozenArray<short>A;", c!"typedef record<DOMString,double>A;", c!"typedef record<USVString,float>A;",
   c!"typedef record<ByteString,B>A;", c!"typedef record<long,B>A;", c!"typedef boolean A;", c!"typedef byte A;", c!"typedef octet A;",
   c!"typedef ByteString A;", c!"typedef DOMString A;", c!"typedef USVString A;", c!"typedef object A;", c!"typedef symbol A;",
   c!"typedef Error A;", c!"typedef ArrayBuffer A;", c!"typedef DataView A;", c!"typedef Int8Array A;", c!"typedef Int16Array A;",
   c!"typedef Int32Array A;", c!"typedef Uint8Array A;", c!"typedef Uint16Array A;", c!"typedef Uint32Array A;",
   c!"typedef Uint8ClampedArray A;", c!"typedef Float32Array A;", c!"typedef Float64Array A;", c!"typedef ArrayBufferView A;",
   c!"typedef BufferSource A;"]

def textVariants (t : Str) : List (Str × Str) :=
  match weedleParse t with
  | .ok defs => variants 30 (.list (defs.map definitionVal))
  | _ => []

def enumVariants : Item → List (Str × Str)
  | .enum x vs => vs.map fun p => (x, p.1)
  | _ => []

theorem variants_found : ∀ p ∈ crateItems.flatMap enumVariants, p ∈ texts.flatMap textVariants := by decide +kernel

theorem variant_found {x y : Str} {T : RTy} {us : List (Str × RTy)} (hm : .enum x us ∈ crateItems) (hy : (y, T) ∈ us) :
    ∃ t defs w, weedleParse t = .ok defs ∧ Part (.variant x y w) (.list (defs.map definitionVal)) := by
  have := variants_found (x, y) (List.mem_flatMap.2 ⟨_, hm, List.mem_map.2 ⟨_, hy, rfl⟩⟩)
  obtain ⟨t, -, h⟩ := List.mem_flatMap.1 this
  unfold textVariants at h
  split at h
  · rename_i defs e
    obtain ⟨w, h⟩ := variants_part h
    exact ⟨t, defs, w, e, h⟩
  · cases h

end Verif.Source.Exact
