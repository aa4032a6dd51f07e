import Verif.Source.ExactBase

/-!
# The declarations of the types of the crate, one by one

The types of `/repo/src/*.rs`. The lemmas serve the proofs of `Verif/Source/Exact.lean`.
-/

namespace Verif.Source.Exact

theorem mArgumentList : Item.alias c!"ArgumentList" (.path2 c!"Punctuated" (.path0 c!"Argument") (.path0 c!"Comma")) ∈ crateItems := by decide +kernel
theorem mArgument : Item.enum c!"Argument" [(c!"Single", .path0 c!"SingleArgument"),
    (c!"Variadic", .path0 c!"VariadicArgument")] ∈ crateItems := by decide +kernel
theorem mSingleArgument : Item.struct c!"SingleArgument" [] [(c!"attributes", .path1 c!"Option" (.path0 c!"ExtendedAttributeList")),
    (c!"optional", .path1 c!"Option" (.path0 c!"Optional")),
    (c!"type_", .path0 c!"AttributedType"),
    (c!"identifier", .path0 c!"Identifier"),
    (c!"default", .path1 c!"Option" (.path0 c!"Default"))] ∈ crateItems := by decide +kernel
theorem mVariadicArgument : Item.struct c!"VariadicArgument" [] [(c!"attributes", .path1 c!"Option" (.path0 c!"ExtendedAttributeList")),
    (c!"type_", .path0 c!"Type"),
    (c!"ellipsis", .path0 c!"Ellipsis"),
    (c!"identifier", .path0 c!"Identifier")] ∈ crateItems := by decide +kernel
theorem mExtendedAttributeList : Item.alias c!"ExtendedAttributeList" (.path1 c!"Bracketed" (.path2 c!"Punctuated" (.path0 c!"ExtendedAttribute") (.path0 c!"Comma"))) ∈ crateItems := by decide +kernel
theorem mIdentifierList : Item.alias c!"IdentifierList" (.path2 c!"Punctuated" (.path0 c!"Identifier") (.path0 c!"Comma")) ∈ crateItems := by decide +kernel
theorem mExtendedAttribute : Item.enum c!"ExtendedAttribute" [(c!"ArgList", .path0 c!"ExtendedAttributeArgList"),
    (c!"NamedArgList", .path0 c!"ExtendedAttributeNamedArgList"),
    (c!"IdentList", .path0 c!"ExtendedAttributeIdentList"),
    (c!"Ident", .path0 c!"ExtendedAttributeIdent"),
    (c!"Wildcard", .path0 c!"ExtendedAttributeWildCard"),
    (c!"NoArgs", .path0 c!"ExtendedAttributeNoArgs")] ∈ crateItems := by decide +kernel
theorem mExtendedAttributeArgList : Item.struct c!"ExtendedAttributeArgList" [] [(c!"identifier", .path0 c!"Identifier"),
    (c!"args", .path1 c!"Parenthesized" (.path0 c!"ArgumentList"))] ∈ crateItems := by decide +kernel
theorem mExtendedAttributeNamedArgList : Item.struct c!"ExtendedAttributeNamedArgList" [] [(c!"lhs_identifier", .path0 c!"Identifier"),
    (c!"assign", .path0 c!"Assign"),
    (c!"rhs_identifier", .path0 c!"Identifier"),
    (c!"args", .path1 c!"Parenthesized" (.path0 c!"ArgumentList"))] ∈ crateItems := by decide +kernel
theorem mExtendedAttributeIdentList : Item.struct c!"ExtendedAttributeIdentList" [] [(c!"identifier", .path0 c!"Identifier"),
    (c!"assign", .path0 c!"Assign"),
    (c!"list", .path1 c!"Parenthesized" (.path0 c!"IdentifierList"))] ∈ crateItems := by decide +kernel
theorem mExtendedAttributeIdent : Item.struct c!"ExtendedAttributeIdent" [] [(c!"lhs_identifier", .path0 c!"Identifier"),
    (c!"assign", .path0 c!"Assign"),
    (c!"rhs", .path0 c!"IdentifierOrString")] ∈ crateItems := by decide +kernel
theorem mExtendedAttributeWildCard : Item.struct c!"ExtendedAttributeWildCard" [] [(c!"lhs_identifier", .path0 c!"Identifier"),
    (c!"assign", .path0 c!"Assign"),
    (c!"rhs", .path0 c!"Asterisk")] ∈ crateItems := by decide +kernel
theorem mExtendedAttributeNoArgs : Item.tuple c!"ExtendedAttributeNoArgs" [] (.path0 c!"Identifier") ∈ crateItems := by decide +kernel
theorem mIdentifierOrString : Item.enum c!"IdentifierOrString" [(c!"Identifier", .path0 c!"Identifier"),
    (c!"String", .path0 c!"StringLit")] ∈ crateItems := by decide +kernel
theorem mIdentifier : Item.tuple c!"Identifier" [] (.path0 c!"&str") ∈ crateItems := by decide +kernel
theorem mDefault : Item.struct c!"Default" [] [(c!"assign", .path0 c!"Assign"),
    (c!"value", .path0 c!"DefaultValue")] ∈ crateItems := by decide +kernel
theorem mDictionaryMembers : Item.alias c!"DictionaryMembers" (.path1 c!"Vec" (.path0 c!"DictionaryMember")) ∈ crateItems := by decide +kernel
theorem mDictionaryMember : Item.struct c!"DictionaryMember" [] [(c!"attributes", .path1 c!"Option" (.path0 c!"ExtendedAttributeList")),
    (c!"required", .path1 c!"Option" (.path0 c!"Required")),
    (c!"type_", .path0 c!"Type"),
    (c!"identifier", .path0 c!"Identifier"),
    (c!"default", .path1 c!"Option" (.path0 c!"Default")),
    (c!"semi_colon", .path0 c!"SemiColon")] ∈ crateItems := by decide +kernel
theorem mInterfaceMembers : Item.alias c!"InterfaceMembers" (.path1 c!"Vec" (.path0 c!"InterfaceMember")) ∈ crateItems := by decide +kernel
theorem mInheritance : Item.struct c!"Inheritance" [] [(c!"colon", .path0 c!"Colon"),
    (c!"identifier", .path0 c!"Identifier")] ∈ crateItems := by decide +kernel
theorem mInterfaceMember : Item.enum c!"InterfaceMember" [(c!"Const", .path0 c!"ConstMember"),
    (c!"Attribute", .path0 c!"AttributeInterfaceMember"),
    (c!"Constructor", .path0 c!"ConstructorInterfaceMember"),
    (c!"Operation", .path0 c!"OperationInterfaceMember"),
    (c!"Iterable", .path0 c!"IterableInterfaceMember"),
    (c!"AsyncIterable", .path0 c!"AsyncIterableInterfaceMember"),
    (c!"Maplike", .path0 c!"MaplikeInterfaceMember"),
    (c!"Setlike", .path0 c!"SetlikeInterfaceMember"),
    (c!"Stringifier", .path0 c!"StringifierMember")] ∈ crateItems := by decide +kernel
theorem mConstMember : Item.struct c!"ConstMember" [] [(c!"attributes", .path1 c!"Option" (.path0 c!"ExtendedAttributeList")),
    (c!"const_", .path0 c!"Const"),
    (c!"const_type", .path0 c!"ConstType"),
    (c!"identifier", .path0 c!"Identifier"),
    (c!"assign", .path0 c!"Assign"),
    (c!"const_value", .path0 c!"ConstValue"),
    (c!"semi_colon", .path0 c!"SemiColon")] ∈ crateItems := by decide +kernel
theorem mAttributeInterfaceMember : Item.struct c!"AttributeInterfaceMember" [] [(c!"attributes", .path1 c!"Option" (.path0 c!"ExtendedAttributeList")),
    (c!"modifier", .path1 c!"Option" (.path0 c!"StringifierOrInheritOrStatic")),
    (c!"readonly", .path1 c!"Option" (.path0 c!"ReadOnly")),
    (c!"attribute", .path0 c!"Attribute"),
    (c!"type_", .path0 c!"AttributedType"),
    (c!"identifier", .path0 c!"Identifier"),
    (c!"semi_colon", .path0 c!"SemiColon")] ∈ crateItems := by decide +kernel
theorem mConstructorInterfaceMember : Item.struct c!"ConstructorInterfaceMember" [] [(c!"attributes", .path1 c!"Option" (.path0 c!"ExtendedAttributeList")),
    (c!"constructor", .path0 c!"Constructor"),
    (c!"args", .path1 c!"Parenthesized" (.path0 c!"ArgumentList")),
    (c!"semi_colon", .path0 c!"SemiColon")] ∈ crateItems := by decide +kernel
theorem mOperationInterfaceMember : Item.struct c!"OperationInterfaceMember" [] [(c!"attributes", .path1 c!"Option" (.path0 c!"ExtendedAttributeList")),
    (c!"modifier", .path1 c!"Option" (.path0 c!"StringifierOrStatic")),
    (c!"special", .path1 c!"Option" (.path0 c!"Special")),
    (c!"return_type", .path0 c!"ReturnType"),
    (c!"identifier", .path1 c!"Option" (.path0 c!"Identifier")),
    (c!"args", .path1 c!"Parenthesized" (.path0 c!"ArgumentList")),
    (c!"semi_colon", .path0 c!"SemiColon")] ∈ crateItems := by decide +kernel
theorem mIterableInterfaceMember : Item.enum c!"IterableInterfaceMember" [(c!"Single", .path0 c!"SingleTypedIterable"),
    (c!"Double", .path0 c!"DoubleTypedIterable")] ∈ crateItems := by decide +kernel
theorem mSingleTypedIterable : Item.struct c!"SingleTypedIterable" [] [(c!"attributes", .path1 c!"Option" (.path0 c!"ExtendedAttributeList")),
    (c!"iterable", .path0 c!"Iterable"),
    (c!"generics", .path1 c!"Generics" (.path0 c!"AttributedType")),
    (c!"semi_colon", .path0 c!"SemiColon")] ∈ crateItems := by decide +kernel
theorem mDoubleTypedIterable : Item.struct c!"DoubleTypedIterable" [] [(c!"attributes", .path1 c!"Option" (.path0 c!"ExtendedAttributeList")),
    (c!"iterable", .path0 c!"Iterable"),
    (c!"generics", .path1 c!"Generics" (.path3 c!"(,,)" (.path0 c!"AttributedType") (.path0 c!"Comma") (.path0 c!"AttributedType"))),
    (c!"semi_colon", .path0 c!"SemiColon")] ∈ crateItems := by decide +kernel
theorem mAsyncIterableInterfaceMember : Item.enum c!"AsyncIterableInterfaceMember" [(c!"Single", .path0 c!"SingleTypedAsyncIterable"),
    (c!"Double", .path0 c!"DoubleTypedAsyncIterable")] ∈ crateItems := by decide +kernel
theorem mSingleTypedAsyncIterable : Item.struct c!"SingleTypedAsyncIterable" [] [(c!"attributes", .path1 c!"Option" (.path0 c!"ExtendedAttributeList")),
    (c!"async_iterable", .path2 c!"(,)" (.path0 c!"Async") (.path0 c!"Iterable")),
    (c!"generics", .path1 c!"Generics" (.path0 c!"AttributedType")),
    (c!"args", .path1 c!"Option" (.path1 c!"Parenthesized" (.path0 c!"ArgumentList"))),
    (c!"semi_colon", .path0 c!"SemiColon")] ∈ crateItems := by decide +kernel
theorem mDoubleTypedAsyncIterable : Item.struct c!"DoubleTypedAsyncIterable" [] [(c!"attributes", .path1 c!"Option" (.path0 c!"ExtendedAttributeList")),
    (c!"async_iterable", .path2 c!"(,)" (.path0 c!"Async") (.path0 c!"Iterable")),
    (c!"generics", .path1 c!"Generics" (.path3 c!"(,,)" (.path0 c!"AttributedType") (.path0 c!"Comma") (.path0 c!"AttributedType"))),
    (c!"args", .path1 c!"Option" (.path1 c!"Parenthesized" (.path0 c!"ArgumentList"))),
    (c!"semi_colon", .path0 c!"SemiColon")] ∈ crateItems := by decide +kernel
theorem mMaplikeInterfaceMember : Item.struct c!"MaplikeInterfaceMember" [] [(c!"attributes", .path1 c!"Option" (.path0 c!"ExtendedAttributeList")),
    (c!"readonly", .path1 c!"Option" (.path0 c!"ReadOnly")),
    (c!"maplike", .path0 c!"Maplike"),
    (c!"generics", .path1 c!"Generics" (.path3 c!"(,,)" (.path0 c!"AttributedType") (.path0 c!"Comma") (.path0 c!"AttributedType"))),
    (c!"semi_colon", .path0 c!"SemiColon")] ∈ crateItems := by decide +kernel
theorem mSetlikeInterfaceMember : Item.struct c!"SetlikeInterfaceMember" [] [(c!"attributes", .path1 c!"Option" (.path0 c!"ExtendedAttributeList")),
    (c!"readonly", .path1 c!"Option" (.path0 c!"ReadOnly")),
    (c!"setlike", .path0 c!"Setlike"),
    (c!"generics", .path1 c!"Generics" (.path0 c!"AttributedType")),
    (c!"semi_colon", .path0 c!"SemiColon")] ∈ crateItems := by decide +kernel
theorem mStringifierMember : Item.struct c!"StringifierMember" [] [(c!"attributes", .path1 c!"Option" (.path0 c!"ExtendedAttributeList")),
    (c!"stringifier", .path0 c!"Stringifier"),
    (c!"semi_colon", .path0 c!"SemiColon")] ∈ crateItems := by decide +kernel
theorem mSpecial : Item.enum c!"Special" [(c!"Getter", .path0 c!"Getter"),
    (c!"Setter", .path0 c!"Setter"),
    (c!"Deleter", .path0 c!"Deleter"),
    (c!"LegacyCaller", .path0 c!"LegacyCaller")] ∈ crateItems := by decide +kernel
theorem mStringifierOrInheritOrStatic : Item.enum c!"StringifierOrInheritOrStatic" [(c!"Stringifier", .path0 c!"Stringifier"),
    (c!"Inherit", .path0 c!"Inherit"),
    (c!"Static", .path0 c!"Static")] ∈ crateItems := by decide +kernel
theorem mStringifierOrStatic : Item.enum c!"StringifierOrStatic" [(c!"Stringifier", .path0 c!"Stringifier"),
    (c!"Static", .path0 c!"Static")] ∈ crateItems := by decide +kernel
theorem mDefinitions : Item.alias c!"Definitions" (.path1 c!"Vec" (.path0 c!"Definition")) ∈ crateItems := by decide +kernel
theorem mDefinition : Item.enum c!"Definition" [(c!"Callback", .path0 c!"CallbackDefinition"),
    (c!"CallbackInterface", .path0 c!"CallbackInterfaceDefinition"),
    (c!"Interface", .path0 c!"InterfaceDefinition"),
    (c!"InterfaceMixin", .path0 c!"InterfaceMixinDefinition"),
    (c!"Namespace", .path0 c!"NamespaceDefinition"),
    (c!"Dictionary", .path0 c!"DictionaryDefinition"),
    (c!"PartialInterface", .path0 c!"PartialInterfaceDefinition"),
    (c!"PartialInterfaceMixin", .path0 c!"PartialInterfaceMixinDefinition"),
    (c!"PartialDictionary", .path0 c!"PartialDictionaryDefinition"),
    (c!"PartialNamespace", .path0 c!"PartialNamespaceDefinition"),
    (c!"Enum", .path0 c!"EnumDefinition"),
    (c!"Typedef", .path0 c!"TypedefDefinition"),
    (c!"IncludesStatement", .path0 c!"IncludesStatementDefinition"),
    (c!"Implements", .path0 c!"ImplementsDefinition")] ∈ crateItems := by decide +kernel
theorem mCallbackDefinition : Item.struct c!"CallbackDefinition" [] [(c!"attributes", .path1 c!"Option" (.path0 c!"ExtendedAttributeList")),
    (c!"callback", .path0 c!"Callback"),
    (c!"identifier", .path0 c!"Identifier"),
    (c!"assign", .path0 c!"Assign"),
    (c!"return_type", .path0 c!"ReturnType"),
    (c!"arguments", .path1 c!"Parenthesized" (.path0 c!"ArgumentList")),
    (c!"semi_colon", .path0 c!"SemiColon")] ∈ crateItems := by decide +kernel
theorem mCallbackInterfaceDefinition : Item.struct c!"CallbackInterfaceDefinition" [] [(c!"attributes", .path1 c!"Option" (.path0 c!"ExtendedAttributeList")),
    (c!"callback", .path0 c!"Callback"),
    (c!"interface", .path0 c!"Interface"),
    (c!"identifier", .path0 c!"Identifier"),
    (c!"inheritance", .path1 c!"Option" (.path0 c!"Inheritance")),
    (c!"members", .path1 c!"Braced" (.path0 c!"InterfaceMembers")),
    (c!"semi_colon", .path0 c!"SemiColon")] ∈ crateItems := by decide +kernel
theorem mInterfaceDefinition : Item.struct c!"InterfaceDefinition" [] [(c!"attributes", .path1 c!"Option" (.path0 c!"ExtendedAttributeList")),
    (c!"interface", .path0 c!"Interface"),
    (c!"identifier", .path0 c!"Identifier"),
    (c!"inheritance", .path1 c!"Option" (.path0 c!"Inheritance")),
    (c!"members", .path1 c!"Braced" (.path0 c!"InterfaceMembers")),
    (c!"semi_colon", .path0 c!"SemiColon")] ∈ crateItems := by decide +kernel
theorem mInterfaceMixinDefinition : Item.struct c!"InterfaceMixinDefinition" [] [(c!"attributes", .path1 c!"Option" (.path0 c!"ExtendedAttributeList")),
    (c!"interface", .path0 c!"Interface"),
    (c!"mixin", .path0 c!"Mixin"),
    (c!"identifier", .path0 c!"Identifier"),
    (c!"members", .path1 c!"Braced" (.path0 c!"MixinMembers")),
    (c!"semi_colon", .path0 c!"SemiColon")] ∈ crateItems := by decide +kernel
theorem mNamespaceDefinition : Item.struct c!"NamespaceDefinition" [] [(c!"attributes", .path1 c!"Option" (.path0 c!"ExtendedAttributeList")),
    (c!"namespace", .path0 c!"Namespace"),
    (c!"identifier", .path0 c!"Identifier"),
    (c!"members", .path1 c!"Braced" (.path0 c!"NamespaceMembers")),
    (c!"semi_colon", .path0 c!"SemiColon")] ∈ crateItems := by decide +kernel
theorem mDictionaryDefinition : Item.struct c!"DictionaryDefinition" [] [(c!"attributes", .path1 c!"Option" (.path0 c!"ExtendedAttributeList")),
    (c!"dictionary", .path0 c!"Dictionary"),
    (c!"identifier", .path0 c!"Identifier"),
    (c!"inheritance", .path1 c!"Option" (.path0 c!"Inheritance")),
    (c!"members", .path1 c!"Braced" (.path0 c!"DictionaryMembers")),
    (c!"semi_colon", .path0 c!"SemiColon")] ∈ crateItems := by decide +kernel
theorem mPartialInterfaceDefinition : Item.struct c!"PartialInterfaceDefinition" [] [(c!"attributes", .path1 c!"Option" (.path0 c!"ExtendedAttributeList")),
    (c!"partial", .path0 c!"Partial"),
    (c!"interface", .path0 c!"Interface"),
    (c!"identifier", .path0 c!"Identifier"),
    (c!"members", .path1 c!"Braced" (.path0 c!"InterfaceMembers")),
    (c!"semi_colon", .path0 c!"SemiColon")] ∈ crateItems := by decide +kernel
theorem mPartialInterfaceMixinDefinition : Item.struct c!"PartialInterfaceMixinDefinition" [] [(c!"attributes", .path1 c!"Option" (.path0 c!"ExtendedAttributeList")),
    (c!"partial", .path0 c!"Partial"),
    (c!"interface", .path0 c!"Interface"),
    (c!"mixin", .path0 c!"Mixin"),
    (c!"identifier", .path0 c!"Identifier"),
    (c!"members", .path1 c!"Braced" (.path0 c!"MixinMembers")),
    (c!"semi_colon", .path0 c!"SemiColon")] ∈ crateItems := by decide +kernel
theorem mPartialDictionaryDefinition : Item.struct c!"PartialDictionaryDefinition" [] [(c!"attributes", .path1 c!"Option" (.path0 c!"ExtendedAttributeList")),
    (c!"partial", .path0 c!"Partial"),
    (c!"dictionary", .path0 c!"Dictionary"),
    (c!"identifier", .path0 c!"Identifier"),
    (c!"members", .path1 c!"Braced" (.path0 c!"DictionaryMembers")),
    (c!"semi_colon", .path0 c!"SemiColon")] ∈ crateItems := by decide +kernel
theorem mPartialNamespaceDefinition : Item.struct c!"PartialNamespaceDefinition" [] [(c!"attributes", .path1 c!"Option" (.path0 c!"ExtendedAttributeList")),
    (c!"partial", .path0 c!"Partial"),
    (c!"namespace", .path0 c!"Namespace"),
    (c!"identifier", .path0 c!"Identifier"),
    (c!"members", .path1 c!"Braced" (.path0 c!"NamespaceMembers")),
    (c!"semi_colon", .path0 c!"SemiColon")] ∈ crateItems := by decide +kernel
theorem mEnumDefinition : Item.struct c!"EnumDefinition" [] [(c!"attributes", .path1 c!"Option" (.path0 c!"ExtendedAttributeList")),
    (c!"enum_", .path0 c!"Enum"),
    (c!"identifier", .path0 c!"Identifier"),
    (c!"values", .path1 c!"Braced" (.path0 c!"EnumValueList")),
    (c!"semi_colon", .path0 c!"SemiColon")] ∈ crateItems := by decide +kernel
theorem mTypedefDefinition : Item.struct c!"TypedefDefinition" [] [(c!"attributes", .path1 c!"Option" (.path0 c!"ExtendedAttributeList")),
    (c!"typedef", .path0 c!"Typedef"),
    (c!"type_", .path0 c!"AttributedType"),
    (c!"identifier", .path0 c!"Identifier"),
    (c!"semi_colon", .path0 c!"SemiColon")] ∈ crateItems := by decide +kernel
theorem mIncludesStatementDefinition : Item.struct c!"IncludesStatementDefinition" [] [(c!"attributes", .path1 c!"Option" (.path0 c!"ExtendedAttributeList")),
    (c!"lhs_identifier", .path0 c!"Identifier"),
    (c!"includes", .path0 c!"Includes"),
    (c!"rhs_identifier", .path0 c!"Identifier"),
    (c!"semi_colon", .path0 c!"SemiColon")] ∈ crateItems := by decide +kernel
theorem mImplementsDefinition : Item.struct c!"ImplementsDefinition" [] [(c!"attributes", .path1 c!"Option" (.path0 c!"ExtendedAttributeList")),
    (c!"lhs_identifier", .path0 c!"Identifier"),
    (c!"includes", .path0 c!"Implements"),
    (c!"rhs_identifier", .path0 c!"Identifier"),
    (c!"semi_colon", .path0 c!"SemiColon")] ∈ crateItems := by decide +kernel
theorem mEnumValueList : Item.alias c!"EnumValueList" (.path2 c!"PunctuatedNonEmpty" (.path0 c!"StringLit") (.path0 c!"Comma")) ∈ crateItems := by decide +kernel
theorem mIntegerLit : Item.enum c!"IntegerLit" [(c!"Dec", .path0 c!"DecLit"),
    (c!"Hex", .path0 c!"HexLit"),
    (c!"Oct", .path0 c!"OctLit")] ∈ crateItems := by decide +kernel
theorem mDecLit : Item.tuple c!"DecLit" [] (.path0 c!"&str") ∈ crateItems := by decide +kernel
theorem mHexLit : Item.tuple c!"HexLit" [] (.path0 c!"&str") ∈ crateItems := by decide +kernel
theorem mOctLit : Item.tuple c!"OctLit" [] (.path0 c!"&str") ∈ crateItems := by decide +kernel
theorem mStringLit : Item.tuple c!"StringLit" [] (.path0 c!"&str") ∈ crateItems := by decide +kernel
theorem mDefaultValue : Item.enum c!"DefaultValue" [(c!"Boolean", .path0 c!"BooleanLit"),
    (c!"EmptyArray", .path0 c!"EmptyArrayLit"),
    (c!"EmptyDictionary", .path0 c!"EmptyDictionaryLit"),
    (c!"Float", .path0 c!"FloatLit"),
    (c!"Integer", .path0 c!"IntegerLit"),
    (c!"Null", .path0 c!"Null"),
    (c!"String", .path0 c!"StringLit")] ∈ crateItems := by decide +kernel
theorem mEmptyArrayLit : Item.struct c!"EmptyArrayLit" [] [(c!"open_bracket", .path0 c!"OpenBracket"),
    (c!"close_bracket", .path0 c!"CloseBracket")] ∈ crateItems := by decide +kernel
theorem mEmptyDictionaryLit : Item.struct c!"EmptyDictionaryLit" [] [(c!"open_brace", .path0 c!"OpenBrace"),
    (c!"close_brace", .path0 c!"CloseBrace")] ∈ crateItems := by decide +kernel
theorem mConstValue : Item.enum c!"ConstValue" [(c!"Boolean", .path0 c!"BooleanLit"),
    (c!"Float", .path0 c!"FloatLit"),
    (c!"Integer", .path0 c!"IntegerLit"),
    (c!"Null", .path0 c!"Null")] ∈ crateItems := by decide +kernel
theorem mBooleanLit : Item.tuple c!"BooleanLit" [] (.path0 c!"bool") ∈ crateItems := by decide +kernel
theorem mFloatLit : Item.enum c!"FloatLit" [(c!"Value", .path0 c!"FloatValueLit"),
    (c!"NegInfinity", .path0 c!"NegInfinity"),
    (c!"Infinity", .path0 c!"Infinity"),
    (c!"NaN", .path0 c!"NaN")] ∈ crateItems := by decide +kernel
theorem mFloatValueLit : Item.tuple c!"FloatValueLit" [] (.path0 c!"&str") ∈ crateItems := by decide +kernel
theorem mMixinMembers : Item.alias c!"MixinMembers" (.path1 c!"Vec" (.path0 c!"MixinMember")) ∈ crateItems := by decide +kernel
theorem mMixinMember : Item.enum c!"MixinMember" [(c!"Const", .path0 c!"ConstMember"),
    (c!"Operation", .path0 c!"OperationMixinMember"),
    (c!"Attribute", .path0 c!"AttributeMixinMember"),
    (c!"Stringifier", .path0 c!"StringifierMember")] ∈ crateItems := by decide +kernel
theorem mOperationMixinMember : Item.struct c!"OperationMixinMember" [] [(c!"attributes", .path1 c!"Option" (.path0 c!"ExtendedAttributeList")),
    (c!"stringifier", .path1 c!"Option" (.path0 c!"Stringifier")),
    (c!"return_type", .path0 c!"ReturnType"),
    (c!"identifier", .path1 c!"Option" (.path0 c!"Identifier")),
    (c!"args", .path1 c!"Parenthesized" (.path0 c!"ArgumentList")),
    (c!"semi_colon", .path0 c!"SemiColon")] ∈ crateItems := by decide +kernel
theorem mAttributeMixinMember : Item.struct c!"AttributeMixinMember" [] [(c!"attributes", .path1 c!"Option" (.path0 c!"ExtendedAttributeList")),
    (c!"stringifier", .path1 c!"Option" (.path0 c!"Stringifier")),
    (c!"readonly", .path1 c!"Option" (.path0 c!"ReadOnly")),
    (c!"attribute", .path0 c!"Attribute"),
    (c!"type_", .path0 c!"AttributedType"),
    (c!"identifier", .path0 c!"Identifier"),
    (c!"semi_colon", .path0 c!"SemiColon")] ∈ crateItems := by decide +kernel
theorem mNamespaceMembers : Item.alias c!"NamespaceMembers" (.path1 c!"Vec" (.path0 c!"NamespaceMember")) ∈ crateItems := by decide +kernel
theorem mNamespaceMember : Item.enum c!"NamespaceMember" [(c!"Const", .path0 c!"ConstNamespaceMember"),
    (c!"Operation", .path0 c!"OperationNamespaceMember"),
    (c!"Attribute", .path0 c!"AttributeNamespaceMember")] ∈ crateItems := by decide +kernel
theorem mConstNamespaceMember : Item.struct c!"ConstNamespaceMember" [] [(c!"attributes", .path1 c!"Option" (.path0 c!"ExtendedAttributeList")),
    (c!"const_", .path0 c!"Const"),
    (c!"const_type", .path0 c!"ConstType"),
    (c!"identifier", .path0 c!"Identifier"),
    (c!"assign", .path0 c!"Assign"),
    (c!"const_value", .path0 c!"ConstValue"),
    (c!"semi_colon", .path0 c!"SemiColon")] ∈ crateItems := by decide +kernel
theorem mOperationNamespaceMember : Item.struct c!"OperationNamespaceMember" [] [(c!"attributes", .path1 c!"Option" (.path0 c!"ExtendedAttributeList")),
    (c!"return_type", .path0 c!"ReturnType"),
    (c!"identifier", .path1 c!"Option" (.path0 c!"Identifier")),
    (c!"args", .path1 c!"Parenthesized" (.path0 c!"ArgumentList")),
    (c!"semi_colon", .path0 c!"SemiColon")] ∈ crateItems := by decide +kernel
theorem mAttributeNamespaceMember : Item.struct c!"AttributeNamespaceMember" [] [(c!"attributes", .path1 c!"Option" (.path0 c!"ExtendedAttributeList")),
    (c!"readonly", .path0 c!"ReadOnly"),
    (c!"attribute", .path0 c!"Attribute"),
    (c!"type_", .path0 c!"AttributedType"),
    (c!"identifier", .path0 c!"Identifier"),
    (c!"semi_colon", .path0 c!"SemiColon")] ∈ crateItems := by decide +kernel
theorem mUnionType : Item.alias c!"UnionType" (.path1 c!"Parenthesized" (.path2 c!"Punctuated" (.path0 c!"UnionMemberType") (.path0 c!"Or"))) ∈ crateItems := by decide +kernel
theorem mType : Item.enum c!"Type" [(c!"Single", .path0 c!"SingleType"),
    (c!"Union", .path1 c!"MayBeNull" (.path0 c!"UnionType"))] ∈ crateItems := by decide +kernel
theorem mSingleType : Item.enum c!"SingleType" [(c!"Any", .path0 c!"Any"),
    (c!"NonAny", .path0 c!"NonAnyType")] ∈ crateItems := by decide +kernel
theorem mNonAnyType : Item.enum c!"NonAnyType" [(c!"Promise", .path0 c!"PromiseType"),
    (c!"Integer", .path1 c!"MayBeNull" (.path0 c!"IntegerType")),
    (c!"FloatingPoint", .path1 c!"MayBeNull" (.path0 c!"FloatingPointType")),
    (c!"Boolean", .path1 c!"MayBeNull" (.path0 c!"Boolean")),
    (c!"Byte", .path1 c!"MayBeNull" (.path0 c!"Byte")),
    (c!"Octet", .path1 c!"MayBeNull" (.path0 c!"Octet")),
    (c!"ByteString", .path1 c!"MayBeNull" (.path0 c!"ByteString")),
    (c!"DOMString", .path1 c!"MayBeNull" (.path0 c!"DOMString")),
    (c!"USVString", .path1 c!"MayBeNull" (.path0 c!"USVString")),
    (c!"Sequence", .path1 c!"MayBeNull" (.path0 c!"SequenceType")),
    (c!"Object", .path1 c!"MayBeNull" (.path0 c!"Object")),
    (c!"Symbol", .path1 c!"MayBeNull" (.path0 c!"Symbol")),
    (c!"Error", .path1 c!"MayBeNull" (.path0 c!"Error")),
    (c!"ArrayBuffer", .path1 c!"MayBeNull" (.path0 c!"ArrayBuffer")),
    (c!"DataView", .path1 c!"MayBeNull" (.path0 c!"DataView")),
    (c!"Int8Array", .path1 c!"MayBeNull" (.path0 c!"Int8Array")),
    (c!"Int16Array", .path1 c!"MayBeNull" (.path0 c!"Int16Array")),
    (c!"Int32Array", .path1 c!"MayBeNull" (.path0 c!"Int32Array")),
    (c!"Uint8Array", .path1 c!"MayBeNull" (.path0 c!"Uint8Array")),
    (c!"Uint16Array", .path1 c!"MayBeNull" (.path0 c!"Uint16Array")),
    (c!"Uint32Array", .path1 c!"MayBeNull" (.path0 c!"Uint32Array")),
    (c!"Uint8ClampedArray", .path1 c!"MayBeNull" (.path0 c!"Uint8ClampedArray")),
    (c!"Float32Array", .path1 c!"MayBeNull" (.path0 c!"Float32Array")),
    (c!"Float64Array", .path1 c!"MayBeNull" (.path0 c!"Float64Array")),
    (c!"ArrayBufferView", .path1 c!"MayBeNull" (.path0 c!"ArrayBufferView")),
    (c!"BufferSource", .path1 c!"MayBeNull" (.path0 c!"BufferSource")),
    (c!"FrozenArrayType", .path1 c!"MayBeNull" (.path0 c!"FrozenArrayType")),
    (c!"RecordType", .path1 c!"MayBeNull" (.path0 c!"RecordType")),
    (c!"Identifier", .path1 c!"MayBeNull" (.path0 c!"Identifier"))] ∈ crateItems := by decide +kernel
theorem mSequenceType : Item.struct c!"SequenceType" [] [(c!"sequence", .path0 c!"Sequence"),
    (c!"generics", .path1 c!"Generics" (.path1 c!"Box" (.path0 c!"Type")))] ∈ crateItems := by decide +kernel
theorem mFrozenArrayType : Item.struct c!"FrozenArrayType" [] [(c!"frozen_array", .path0 c!"FrozenArray"),
    (c!"generics", .path1 c!"Generics" (.path1 c!"Box" (.path0 c!"Type")))] ∈ crateItems := by decide +kernel
theorem mPromiseType : Item.struct c!"PromiseType" [] [(c!"promise", .path0 c!"Promise"),
    (c!"generics", .path1 c!"Generics" (.path1 c!"Box" (.path0 c!"ReturnType")))] ∈ crateItems := by decide +kernel
theorem mIntegerType : Item.enum c!"IntegerType" [(c!"LongLong", .path0 c!"LongLongType"),
    (c!"Long", .path0 c!"LongType"),
    (c!"Short", .path0 c!"ShortType")] ∈ crateItems := by decide +kernel
theorem mLongLongType : Item.struct c!"LongLongType" [] [(c!"unsigned", .path1 c!"Option" (.path0 c!"Unsigned")),
    (c!"long_long", .path2 c!"(,)" (.path0 c!"Long") (.path0 c!"Long"))] ∈ crateItems := by decide +kernel
theorem mLongType : Item.struct c!"LongType" [] [(c!"unsigned", .path1 c!"Option" (.path0 c!"Unsigned")),
    (c!"long", .path0 c!"Long")] ∈ crateItems := by decide +kernel
theorem mShortType : Item.struct c!"ShortType" [] [(c!"unsigned", .path1 c!"Option" (.path0 c!"Unsigned")),
    (c!"short", .path0 c!"Short")] ∈ crateItems := by decide +kernel
theorem mFloatingPointType : Item.enum c!"FloatingPointType" [(c!"Float", .path0 c!"FloatType"),
    (c!"Double", .path0 c!"DoubleType")] ∈ crateItems := by decide +kernel
theorem mFloatType : Item.struct c!"FloatType" [] [(c!"unrestricted", .path1 c!"Option" (.path0 c!"Unrestricted")),
    (c!"float", .path0 c!"Float")] ∈ crateItems := by decide +kernel
theorem mDoubleType : Item.struct c!"DoubleType" [] [(c!"unrestricted", .path1 c!"Option" (.path0 c!"Unrestricted")),
    (c!"double", .path0 c!"Double")] ∈ crateItems := by decide +kernel
theorem mRecordType : Item.struct c!"RecordType" [] [(c!"record", .path0 c!"Record"),
    (c!"generics", .path1 c!"Generics" (.path3 c!"(,,)" (.path1 c!"Box" (.path0 c!"RecordKeyType")) (.path0 c!"Comma") (.path1 c!"Box" (.path0 c!"Type"))))] ∈ crateItems := by decide +kernel
theorem mRecordKeyType : Item.enum c!"RecordKeyType" [(c!"Byte", .path0 c!"ByteString"),
    (c!"DOM", .path0 c!"DOMString"),
    (c!"USV", .path0 c!"USVString"),
    (c!"NonAny", .path0 c!"NonAnyType")] ∈ crateItems := by decide +kernel
theorem mUnionMemberType : Item.enum c!"UnionMemberType" [(c!"Single", .path0 c!"AttributedNonAnyType"),
    (c!"Union", .path1 c!"MayBeNull" (.path0 c!"UnionType"))] ∈ crateItems := by decide +kernel
theorem mConstType : Item.enum c!"ConstType" [(c!"Integer", .path1 c!"MayBeNull" (.path0 c!"IntegerType")),
    (c!"FloatingPoint", .path1 c!"MayBeNull" (.path0 c!"FloatingPointType")),
    (c!"Boolean", .path1 c!"MayBeNull" (.path0 c!"Boolean")),
    (c!"Byte", .path1 c!"MayBeNull" (.path0 c!"Byte")),
    (c!"Octet", .path1 c!"MayBeNull" (.path0 c!"Octet")),
    (c!"Identifier", .path1 c!"MayBeNull" (.path0 c!"Identifier"))] ∈ crateItems := by decide +kernel
theorem mReturnType : Item.enum c!"ReturnType" [(c!"Undefined", .path0 c!"Undefined"),
    (c!"Type", .path0 c!"Type")] ∈ crateItems := by decide +kernel
theorem mAttributedType : Item.struct c!"AttributedType" [] [(c!"attributes", .path1 c!"Option" (.path0 c!"ExtendedAttributeList")),
    (c!"type_", .path0 c!"Type")] ∈ crateItems := by decide +kernel
theorem mAttributedNonAnyType : Item.struct c!"AttributedNonAnyType" [] [(c!"attributes", .path1 c!"Option" (.path0 c!"ExtendedAttributeList")),
    (c!"type_", .path0 c!"NonAnyType")] ∈ crateItems := by decide +kernel

end Verif.Source.Exact
