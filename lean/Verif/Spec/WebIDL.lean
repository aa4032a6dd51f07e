import Verif.Spec.Lexical

/-!
# The grammar of Web IDL

The productions of the appendix "IDL grammar" of the Web IDL standard (autumn 2020, when `void` had become `undefined`),
which `/repo/src/lib.rs:19` says the parser follows. This file is written after that document and not after
the code. Differences from the document:

* `Generic` stands for `TypeWithExtendedAttributes` as an argument of `sequence`, `FrozenArray` and `record`,
  and `Required` for it after `required`; both are `Type_` here (`Type` in the standard). The code does not accept attributes at these places (C30).
* `ObservableArray` is left out; `undefined` is not followed by `?`.
* Extended attributes have the six forms that the standard names, not arbitrary balanced tokens.
* `Special` has the historical alternative `legacycaller`.
-/

namespace Verif.Spec.WebIDL

inductive NonTerminal where
  | Definitions | Definition | ArgumentNameKeyword | CallbackOrInterfaceOrMixin | InterfaceOrMixin | InterfaceRest
  | Partial | PartialDefinition | PartialInterfaceOrPartialMixin | PartialInterfaceRest | InterfaceMembers
  | InterfaceMember | PartialInterfaceMembers | PartialInterfaceMember | Inheritance | MixinRest | MixinMembers
  | MixinMember | IncludesStatement | CallbackRestOrInterface | CallbackInterfaceMembers | CallbackInterfaceMember
  | Const | ConstValue | BooleanLiteral | FloatLiteral | ConstType | ReadOnlyMember | ReadOnlyMemberRest
  | ReadWriteAttribute | InheritAttribute | AttributeRest | AttributeName | AttributeNameKeyword | OptionalReadOnly
  | DefaultValue | Operation | RegularOperation | SpecialOperation | Special | OperationRest | OptionalOperationName
  | OperationName | OperationNameKeyword | ArgumentList | Arguments | Argument | ArgumentRest | ArgumentName | Ellipsis
  | ReturnType | Constructor | Stringifier | StringifierRest | StaticMember | StaticMemberRest | Iterable | OptionalType
  | AsyncIterable | OptionalArgumentList | ReadWriteMaplike | MaplikeRest | ReadWriteSetlike | SetlikeRest | Namespace
  | NamespaceMembers | NamespaceMember | Dictionary | DictionaryMembers | DictionaryMember | DictionaryMemberRest
  | PartialDictionary | Default | Enum | EnumValueList | EnumValueListComma | EnumValueListString | CallbackRest
  | Typedef | Type_ | TypeWithExtendedAttributes | Generic | Required | SingleType | UnionType | UnionMemberType
  | UnionMemberTypes | DistinguishableType | PrimitiveType | UnrestrictedFloatType | FloatType | UnsignedIntegerType
  | IntegerType | OptionalLong | StringType | PromiseType | RecordType | Null | BufferRelatedType
  | ExtendedAttributeList | ExtendedAttributes | ExtendedAttribute | ExtendedAttributeNoArgs | ExtendedAttributeArgList
  | ExtendedAttributeIdent | ExtendedAttributeString | ExtendedAttributeWildcard | ExtendedAttributeIdentList
  | ExtendedAttributeNamedArgList | IdentifierList | Identifiers
  deriving DecidableEq

/-- The symbols in productions: terminals, nonterminals, and the four classes of tokens. -/
inductive Symbol where
  | t (w : Str)
  | n (N : NonTerminal)
  | identifier | integer | decimal | string
  deriving DecidableEq

open NonTerminal Symbol

instance : Coe NonTerminal Symbol := ⟨n⟩

/-- One alternative of a production. -/
abbrev Alt := List Symbol

/-- The alternatives of each nonterminal. -/
def productions : NonTerminal → List Alt
  | Definitions => [[ExtendedAttributeList, Definition, Definitions], []]
  | Definition => [[CallbackOrInterfaceOrMixin], [Namespace], [Partial], [Dictionary], [Enum], [Typedef],
      [IncludesStatement]]
  | ArgumentNameKeyword => [[t c!"async"], [t c!"attribute"], [t c!"callback"], [t c!"const"], [t c!"constructor"],
      [t c!"deleter"], [t c!"dictionary"], [t c!"enum"], [t c!"getter"], [t c!"includes"], [t c!"inherit"],
      [t c!"interface"], [t c!"iterable"], [t c!"maplike"], [t c!"mixin"], [t c!"namespace"], [t c!"partial"],
      [t c!"readonly"], [t c!"required"], [t c!"setlike"], [t c!"setter"], [t c!"static"], [t c!"stringifier"],
      [t c!"typedef"], [t c!"unrestricted"]]
  | CallbackOrInterfaceOrMixin => [[t c!"callback", CallbackRestOrInterface], [t c!"interface", InterfaceOrMixin]]
  | InterfaceOrMixin => [[InterfaceRest], [MixinRest]]
  | InterfaceRest => [[identifier, Inheritance, t c!"{", InterfaceMembers, t c!"}", t c!";"]]
  | Partial => [[t c!"partial", PartialDefinition]]
  | PartialDefinition => [[t c!"interface", PartialInterfaceOrPartialMixin], [PartialDictionary], [Namespace]]
  | PartialInterfaceOrPartialMixin => [[PartialInterfaceRest], [MixinRest]]
  | PartialInterfaceRest => [[identifier, t c!"{", PartialInterfaceMembers, t c!"}", t c!";"]]
  | InterfaceMembers => [[ExtendedAttributeList, InterfaceMember, InterfaceMembers], []]
  | InterfaceMember => [[PartialInterfaceMember], [Constructor]]
  | PartialInterfaceMembers => [[ExtendedAttributeList, PartialInterfaceMember, PartialInterfaceMembers], []]
  | PartialInterfaceMember => [[Const], [Operation], [Stringifier], [StaticMember], [Iterable], [AsyncIterable],
      [ReadOnlyMember], [ReadWriteAttribute], [ReadWriteMaplike], [ReadWriteSetlike], [InheritAttribute]]
  | Inheritance => [[t c!":", identifier], []]
  | MixinRest => [[t c!"mixin", identifier, t c!"{", MixinMembers, t c!"}", t c!";"]]
  | MixinMembers => [[ExtendedAttributeList, MixinMember, MixinMembers], []]
  | MixinMember => [[Const], [RegularOperation], [Stringifier], [OptionalReadOnly, AttributeRest]]
  | IncludesStatement => [[identifier, t c!"includes", identifier, t c!";"]]
  | CallbackRestOrInterface => [[CallbackRest],
      [t c!"interface", identifier, t c!"{", CallbackInterfaceMembers, t c!"}", t c!";"]]
  | CallbackInterfaceMembers => [[ExtendedAttributeList, CallbackInterfaceMember, CallbackInterfaceMembers], []]
  | CallbackInterfaceMember => [[Const], [RegularOperation]]
  | Const => [[t c!"const", ConstType, identifier, t c!"=", ConstValue, t c!";"]]
  | ConstValue => [[BooleanLiteral], [FloatLiteral], [integer]]
  | BooleanLiteral => [[t c!"true"], [t c!"false"]]
  | FloatLiteral => [[decimal], [t c!"-Infinity"], [t c!"Infinity"], [t c!"NaN"]]
  | ConstType => [[PrimitiveType], [identifier]]
  | ReadOnlyMember => [[t c!"readonly", ReadOnlyMemberRest]]
  | ReadOnlyMemberRest => [[AttributeRest], [MaplikeRest], [SetlikeRest]]
  | ReadWriteAttribute => [[AttributeRest]]
  | InheritAttribute => [[t c!"inherit", AttributeRest]]
  | AttributeRest => [[t c!"attribute", TypeWithExtendedAttributes, AttributeName, t c!";"]]
  | AttributeName => [[AttributeNameKeyword], [identifier]]
  | AttributeNameKeyword => [[t c!"async"], [t c!"required"]]
  | OptionalReadOnly => [[t c!"readonly"], []]
  | DefaultValue => [[ConstValue], [string], [t c!"[", t c!"]"], [t c!"{", t c!"}"], [t c!"null"]]
  | Operation => [[RegularOperation], [SpecialOperation]]
  | RegularOperation => [[ReturnType, OperationRest]]
  | SpecialOperation => [[Special, RegularOperation]]
  | Special => [[t c!"getter"], [t c!"setter"], [t c!"deleter"], [t c!"legacycaller"]]
  | OperationRest => [[OptionalOperationName, t c!"(", ArgumentList, t c!")", t c!";"]]
  | OptionalOperationName => [[OperationName], []]
  | OperationName => [[OperationNameKeyword], [identifier]]
  | OperationNameKeyword => [[t c!"includes"]]
  | ArgumentList => [[Argument, Arguments], []]
  | Arguments => [[t c!",", Argument, Arguments], []]
  | Argument => [[ExtendedAttributeList, ArgumentRest]]
  | ArgumentRest => [[t c!"optional", TypeWithExtendedAttributes, ArgumentName, Default], [Type_, Ellipsis, ArgumentName]]
  | ArgumentName => [[ArgumentNameKeyword], [identifier]]
  | Ellipsis => [[t c!"..."], []]
  | ReturnType => [[Type_], [t c!"undefined"]]
  | Constructor => [[t c!"constructor", t c!"(", ArgumentList, t c!")", t c!";"]]
  | Stringifier => [[t c!"stringifier", StringifierRest]]
  | StringifierRest => [[OptionalReadOnly, AttributeRest], [RegularOperation], [t c!";"]]
  | StaticMember => [[t c!"static", StaticMemberRest]]
  | StaticMemberRest => [[OptionalReadOnly, AttributeRest], [RegularOperation]]
  | Iterable => [[t c!"iterable", t c!"<", TypeWithExtendedAttributes, OptionalType, t c!">", t c!";"]]
  | OptionalType => [[t c!",", TypeWithExtendedAttributes], []]
  | AsyncIterable => [[t c!"async", t c!"iterable", t c!"<", TypeWithExtendedAttributes, OptionalType, t c!">",
      OptionalArgumentList, t c!";"]]
  | OptionalArgumentList => [[t c!"(", ArgumentList, t c!")"], []]
  | ReadWriteMaplike => [[MaplikeRest]]
  | MaplikeRest => [[t c!"maplike", t c!"<", TypeWithExtendedAttributes, t c!",", TypeWithExtendedAttributes, t c!">",
      t c!";"]]
  | ReadWriteSetlike => [[SetlikeRest]]
  | SetlikeRest => [[t c!"setlike", t c!"<", TypeWithExtendedAttributes, t c!">", t c!";"]]
  | Namespace => [[t c!"namespace", identifier, t c!"{", NamespaceMembers, t c!"}", t c!";"]]
  | NamespaceMembers => [[ExtendedAttributeList, NamespaceMember, NamespaceMembers], []]
  | NamespaceMember => [[RegularOperation], [t c!"readonly", AttributeRest], [Const]]
  | Dictionary => [[t c!"dictionary", identifier, Inheritance, t c!"{", DictionaryMembers, t c!"}", t c!";"]]
  | DictionaryMembers => [[DictionaryMember, DictionaryMembers], []]
  | DictionaryMember => [[ExtendedAttributeList, DictionaryMemberRest]]
  | DictionaryMemberRest => [[t c!"required", Required, identifier, t c!";"], [Type_, identifier, Default, t c!";"]]
  | PartialDictionary => [[t c!"dictionary", identifier, t c!"{", DictionaryMembers, t c!"}", t c!";"]]
  | Default => [[t c!"=", DefaultValue], []]
  | Enum => [[t c!"enum", identifier, t c!"{", EnumValueList, t c!"}", t c!";"]]
  | EnumValueList => [[string, EnumValueListComma]]
  | EnumValueListComma => [[t c!",", EnumValueListString], []]
  | EnumValueListString => [[string, EnumValueListComma], []]
  | CallbackRest => [[identifier, t c!"=", ReturnType, t c!"(", ArgumentList, t c!")", t c!";"]]
  | Typedef => [[t c!"typedef", TypeWithExtendedAttributes, identifier, t c!";"]]
  | Type_ => [[SingleType], [UnionType, Null]]
  | TypeWithExtendedAttributes => [[ExtendedAttributeList, Type_]]
  | Generic => [[Type_]]
  | Required => [[Type_]]
  | SingleType => [[DistinguishableType], [t c!"any"], [PromiseType]]
  | UnionType => [[t c!"(", UnionMemberType, t c!"or", UnionMemberType, UnionMemberTypes, t c!")"]]
  | UnionMemberType => [[ExtendedAttributeList, DistinguishableType], [UnionType, Null]]
  | UnionMemberTypes => [[t c!"or", UnionMemberType, UnionMemberTypes], []]
  | DistinguishableType => [[PrimitiveType, Null], [StringType, Null], [identifier, Null],
      [t c!"sequence", t c!"<", Generic, t c!">", Null], [t c!"object", Null], [t c!"symbol", Null],
      [BufferRelatedType, Null], [t c!"FrozenArray", t c!"<", Generic, t c!">", Null], [RecordType, Null],
      [t c!"undefined"]]
  | PrimitiveType => [[UnsignedIntegerType], [UnrestrictedFloatType], [t c!"boolean"], [t c!"byte"], [t c!"octet"],
      [t c!"bigint"]]
  | UnrestrictedFloatType => [[t c!"unrestricted", FloatType], [FloatType]]
  | FloatType => [[t c!"float"], [t c!"double"]]
  | UnsignedIntegerType => [[t c!"unsigned", IntegerType], [IntegerType]]
  | IntegerType => [[t c!"short"], [t c!"long", OptionalLong]]
  | OptionalLong => [[t c!"long"], []]
  | StringType => [[t c!"ByteString"], [t c!"DOMString"], [t c!"USVString"]]
  | PromiseType => [[t c!"Promise", t c!"<", ReturnType, t c!">"]]
  | RecordType => [[t c!"record", t c!"<", StringType, t c!",", Generic, t c!">"]]
  | Null => [[t c!"?"], []]
  | BufferRelatedType => [[t c!"ArrayBuffer"], [t c!"DataView"], [t c!"Int8Array"], [t c!"Int16Array"],
      [t c!"Int32Array"], [t c!"Uint8Array"], [t c!"Uint16Array"], [t c!"Uint32Array"], [t c!"Uint8ClampedArray"],
      [t c!"BigInt64Array"], [t c!"BigUint64Array"], [t c!"Float32Array"], [t c!"Float64Array"]]
  | ExtendedAttributeList => [[t c!"[", ExtendedAttribute, ExtendedAttributes, t c!"]"], []]
  | ExtendedAttributes => [[t c!",", ExtendedAttribute, ExtendedAttributes], []]
  | ExtendedAttribute => [[ExtendedAttributeNoArgs], [ExtendedAttributeArgList], [ExtendedAttributeIdent],
      [ExtendedAttributeString], [ExtendedAttributeWildcard], [ExtendedAttributeIdentList],
      [ExtendedAttributeNamedArgList]]
  | ExtendedAttributeNoArgs => [[identifier]]
  | ExtendedAttributeArgList => [[identifier, t c!"(", ArgumentList, t c!")"]]
  | ExtendedAttributeIdent => [[identifier, t c!"=", identifier]]
  | ExtendedAttributeString => [[identifier, t c!"=", string]]
  | ExtendedAttributeWildcard => [[identifier, t c!"=", t c!"*"]]
  | ExtendedAttributeIdentList => [[identifier, t c!"=", t c!"(", IdentifierList, t c!")"]]
  | ExtendedAttributeNamedArgList => [[identifier, t c!"=", identifier, t c!"(", ArgumentList, t c!")"]]
  | IdentifierList => [[identifier, Identifiers]]
  | Identifiers => [[t c!",", identifier, Identifiers], []]

/-- The terminals that occur in productions. -/
def Terminal (w : Str) : Prop := ∃ N, ∃ rhs ∈ productions N, t w ∈ rhs

/-- A token of the class `identifier`: `[_]?[A-Za-z][0-9A-Z_a-z-]*`, and not a terminal. (In the standard, a `-` may stand
in front, too.) -/
def Identifier (w : Str) : Prop := Regex.identifier.Matches w ∧ ¬ Terminal w

/-- A token of the class `integer`: `-?([1-9][0-9]*|0[Xx][0-9A-Fa-f]+|0[0-7]*)`. -/
def Integer (w : Str) : Prop :=
  (Regex.opt (.chr '-') ⬝ (Regex.digit1 ⬝ .star .digit ∣
    (Regex.chr '0' ⬝ (Regex.chr 'X' ∣ Regex.chr 'x') ⬝ .plus .hexDigit) ∣ Regex.chr '0' ⬝ .star .octDigit)).Matches w

/-- A token of the class `decimal`:
`-?(([0-9]+\.[0-9]*|[0-9]*\.[0-9]+)([Ee][+-]?[0-9]+)?|[0-9]+[Ee][+-]?[0-9]+)`. -/
def Decimal (w : Str) : Prop := Regex.float.Matches w

/-- A token of the class `string`: `"[^"]*"`. -/
def String (w : Str) : Prop := Regex.string.Matches w

mutual

/-- `Derives N ls`: the nonterminal `N` derives the tokens `ls`. -/
inductive Derives : NonTerminal → List Str → Prop where
  | mk {N : NonTerminal} {rhs : Alt} {ls : List Str} (h : rhs ∈ productions N) (hs : DerivesAll rhs ls) : Derives N ls

/-- The symbols of an alternative derive tokens one after the other. -/
inductive DerivesAll : Alt → List Str → Prop where
  | nil : DerivesAll [] []
  | terminal {w : Str} {ss : Alt} {ls : List Str} (hs : DerivesAll ss ls) : DerivesAll (t w :: ss) (w :: ls)
  | nonTerminal {N : NonTerminal} {ss : Alt} {l ls : List Str} (h : Derives N l) (hs : DerivesAll ss ls) :
      DerivesAll (n N :: ss) (l ++ ls)
  | identifier {w : Str} {ss : Alt} {ls : List Str} (h : Identifier w) (hs : DerivesAll ss ls) :
      DerivesAll (identifier :: ss) (w :: ls)
  | integer {w : Str} {ss : Alt} {ls : List Str} (h : Integer w) (hs : DerivesAll ss ls) :
      DerivesAll (integer :: ss) (w :: ls)
  | decimal {w : Str} {ss : Alt} {ls : List Str} (h : Decimal w) (hs : DerivesAll ss ls) :
      DerivesAll (decimal :: ss) (w :: ls)
  | string {w : Str} {ss : Alt} {ls : List Str} (h : String w) (hs : DerivesAll ss ls) :
      DerivesAll (string :: ss) (w :: ls)

end

end Verif.Spec.WebIDL
