import Verif.Source.Conv

/-! # Looking up the declarations -/

namespace Verif.Source

theorem find_ArgumentList : find decls c!"ArgumentList" = some (
  .alias c!"ArgumentList" (.path2 c!"Punctuated" (.path0 c!"Argument") (.path0 c!"Comma"))) := by decide +kernel

theorem find_Argument : find decls c!"Argument" = some (
  .enum c!"Argument" [
    (c!"Single", .path0 c!"SingleArgument"),
    (c!"Variadic", .path0 c!"VariadicArgument")]) := by decide +kernel

theorem find_SingleArgument : find decls c!"SingleArgument" = some (
  .struct c!"SingleArgument" [] [
    ⟨c!"attributes", .path1 c!"Option" (.path0 c!"ExtendedAttributeList"), .weedle⟩,
    ⟨c!"optional", .path1 c!"Option" (.path0 c!"Optional"), .weedle⟩,
    ⟨c!"type_", .path0 c!"AttributedType", .weedle⟩,
    ⟨c!"identifier", .path0 c!"Identifier", .weedle⟩,
    ⟨c!"default", .path1 c!"Option" (.path0 c!"Default"), .mac (.map (.condSome c!"optional" (.weedle (.path1 c!"Option" (.path0 c!"Default")))) c!"default" (.unwrapOrNone c!"default"))⟩]) := by decide +kernel

theorem find_VariadicArgument : find decls c!"VariadicArgument" = some (
  .struct c!"VariadicArgument" [] [
    ⟨c!"attributes", .path1 c!"Option" (.path0 c!"ExtendedAttributeList"), .weedle⟩,
    ⟨c!"type_", .path0 c!"Type", .weedle⟩,
    ⟨c!"ellipsis", .path0 c!"Ellipsis", .weedle⟩,
    ⟨c!"identifier", .path0 c!"Identifier", .weedle⟩]) := by decide +kernel

theorem find_ExtendedAttributeList : find decls c!"ExtendedAttributeList" = some (
  .alias c!"ExtendedAttributeList" (.path1 c!"Bracketed" (.path2 c!"Punctuated" (.path0 c!"ExtendedAttribute") (.path0 c!"Comma")))) := by decide +kernel

theorem find_IdentifierList : find decls c!"IdentifierList" = some (
  .alias c!"IdentifierList" (.path2 c!"Punctuated" (.path0 c!"Identifier") (.path0 c!"Comma"))) := by decide +kernel

theorem find_ExtendedAttribute : find decls c!"ExtendedAttribute" = some (
  .enum c!"ExtendedAttribute" [
    (c!"ArgList", .path0 c!"ExtendedAttributeArgList"),
    (c!"NamedArgList", .path0 c!"ExtendedAttributeNamedArgList"),
    (c!"IdentList", .path0 c!"ExtendedAttributeIdentList"),
    (c!"Ident", .path0 c!"ExtendedAttributeIdent"),
    (c!"Wildcard", .path0 c!"ExtendedAttributeWildCard"),
    (c!"NoArgs", .path0 c!"ExtendedAttributeNoArgs")]) := by decide +kernel

theorem find_ExtendedAttributeArgList : find decls c!"ExtendedAttributeArgList" = some (
  .struct c!"ExtendedAttributeArgList" [] [
    ⟨c!"identifier", .path0 c!"Identifier", .weedle⟩,
    ⟨c!"args", .path1 c!"Parenthesized" (.path0 c!"ArgumentList"), .weedle⟩]) := by decide +kernel

theorem find_ExtendedAttributeNamedArgList : find decls c!"ExtendedAttributeNamedArgList" = some (
  .struct c!"ExtendedAttributeNamedArgList" [] [
    ⟨c!"lhs_identifier", .path0 c!"Identifier", .weedle⟩,
    ⟨c!"assign", .path0 c!"Assign", .weedle⟩,
    ⟨c!"rhs_identifier", .path0 c!"Identifier", .weedle⟩,
    ⟨c!"args", .path1 c!"Parenthesized" (.path0 c!"ArgumentList"), .weedle⟩]) := by decide +kernel

theorem find_ExtendedAttributeIdentList : find decls c!"ExtendedAttributeIdentList" = some (
  .struct c!"ExtendedAttributeIdentList" [] [
    ⟨c!"identifier", .path0 c!"Identifier", .weedle⟩,
    ⟨c!"assign", .path0 c!"Assign", .weedle⟩,
    ⟨c!"list", .path1 c!"Parenthesized" (.path0 c!"IdentifierList"), .weedle⟩]) := by decide +kernel

theorem find_ExtendedAttributeIdent : find decls c!"ExtendedAttributeIdent" = some (
  .struct c!"ExtendedAttributeIdent" [] [
    ⟨c!"lhs_identifier", .path0 c!"Identifier", .weedle⟩,
    ⟨c!"assign", .path0 c!"Assign", .weedle⟩,
    ⟨c!"rhs", .path0 c!"IdentifierOrString", .weedle⟩]) := by decide +kernel

theorem find_ExtendedAttributeWildCard : find decls c!"ExtendedAttributeWildCard" = some (
  .struct c!"ExtendedAttributeWildCard" [] [
    ⟨c!"lhs_identifier", .path0 c!"Identifier", .weedle⟩,
    ⟨c!"assign", .path0 c!"Assign", .weedle⟩,
    ⟨c!"rhs", .path0 c!"Asterisk", .weedle⟩]) := by decide +kernel

theorem find_ExtendedAttributeNoArgs : find decls c!"ExtendedAttributeNoArgs" = some (
  .newtype c!"ExtendedAttributeNoArgs" (.weedle (.path0 c!"Identifier"))) := by decide +kernel

theorem find_IdentifierOrString : find decls c!"IdentifierOrString" = some (
  .enum c!"IdentifierOrString" [
    (c!"Identifier", .path0 c!"Identifier"),
    (c!"String", .path0 c!"StringLit")]) := by decide +kernel

theorem find_Option : find decls c!"Option" = some (
  .fn c!"Option" [c!"T"] (.opt (.weedle (.path0 c!"T")))) := by decide +kernel

theorem find_Box : find decls c!"Box" = some (
  .fn c!"Box" [c!"T"] (.bind (some c!"inner") (.weedle (.path0 c!"T")) (.ret (.box c!"inner")))) := by decide +kernel

theorem find_Vec : find decls c!"Vec" = some (
  .fn c!"Vec" [c!"T"] (.many0 (.weedle (.path0 c!"T")))) := by decide +kernel

theorem find_pair : find decls c!"(,)" = some (
  .fn c!"(,)" [c!"T", c!"U"] (.bind (some c!"t") (.weedle (.path0 c!"T")) (.bind (some c!"u") (.weedle (.path0 c!"U")) (.ret (.pair c!"t" c!"u"))))) := by decide +kernel

theorem find_triple : find decls c!"(,,)" = some (
  .fn c!"(,,)" [c!"T", c!"U", c!"V"] (.bind (some c!"t") (.weedle (.path0 c!"T")) (.bind (some c!"u") (.weedle (.path0 c!"U")) (.bind (some c!"v") (.weedle (.path0 c!"V")) (.ret (.triple c!"t" c!"u" c!"v")))))) := by decide +kernel

theorem find_Parenthesized : find decls c!"Parenthesized" = some (
  .struct c!"Parenthesized" [c!"T"] [
    ⟨c!"open_paren", .path0 c!"OpenParen", .weedle⟩,
    ⟨c!"body", .path0 c!"T", .weedle⟩,
    ⟨c!"close_paren", .path0 c!"CloseParen", .weedle⟩]) := by decide +kernel

theorem find_Bracketed : find decls c!"Bracketed" = some (
  .struct c!"Bracketed" [c!"T"] [
    ⟨c!"open_bracket", .path0 c!"OpenBracket", .weedle⟩,
    ⟨c!"body", .path0 c!"T", .weedle⟩,
    ⟨c!"close_bracket", .path0 c!"CloseBracket", .weedle⟩]) := by decide +kernel

theorem find_Braced : find decls c!"Braced" = some (
  .struct c!"Braced" [c!"T"] [
    ⟨c!"open_brace", .path0 c!"OpenBrace", .weedle⟩,
    ⟨c!"body", .path0 c!"T", .weedle⟩,
    ⟨c!"close_brace", .path0 c!"CloseBrace", .weedle⟩]) := by decide +kernel

theorem find_Generics : find decls c!"Generics" = some (
  .struct c!"Generics" [c!"T"] [
    ⟨c!"open_angle", .path0 c!"LessThan", .weedle⟩,
    ⟨c!"body", .path0 c!"T", .weedle⟩,
    ⟨c!"close_angle", .path0 c!"GreaterThan", .weedle⟩]) := by decide +kernel

theorem find_Punctuated : find decls c!"Punctuated" = some (
  .struct c!"Punctuated" [c!"T", c!"S"] [
    ⟨c!"list", .path1 c!"Vec" (.path0 c!"T"), .mac (.separatedList (.weedle (.path0 c!"S")) (.weedle (.path0 c!"T")))⟩,
    ⟨c!"separator", .path0 c!"S", .marker⟩]) := by decide +kernel

theorem find_PunctuatedNonEmpty : find decls c!"PunctuatedNonEmpty" = some (
  .struct c!"PunctuatedNonEmpty" [c!"T", c!"S"] [
    ⟨c!"list", .path1 c!"Vec" (.path0 c!"T"), .mac (.terminated (.separatedNonemptyList (.weedle (.path0 c!"S")) (.weedle (.path0 c!"T"))) (.opt (.weedle (.path0 c!"S"))))⟩,
    ⟨c!"separator", .path0 c!"S", .marker⟩]) := by decide +kernel

theorem find_Identifier : find decls c!"Identifier" = some (
  .newtype c!"Identifier" (.ws (.bind none (.opt (.char '_')) (.bind (some c!"id") (.recognize (.bind none (.takeWhile1 (.alphabetic)) (.bind none (.takeWhile (.or (.alphanumeric) (.or (.eq '_') (.eq '-')))) (.ret (.unit))))) (.ret (.var c!"id")))))) := by decide +kernel

theorem find_Default : find decls c!"Default" = some (
  .struct c!"Default" [] [
    ⟨c!"assign", .path0 c!"Assign", .weedle⟩,
    ⟨c!"value", .path0 c!"DefaultValue", .weedle⟩]) := by decide +kernel

theorem find_DictionaryMembers : find decls c!"DictionaryMembers" = some (
  .alias c!"DictionaryMembers" (.path1 c!"Vec" (.path0 c!"DictionaryMember"))) := by decide +kernel

theorem find_DictionaryMember : find decls c!"DictionaryMember" = some (
  .struct c!"DictionaryMember" [] [
    ⟨c!"attributes", .path1 c!"Option" (.path0 c!"ExtendedAttributeList"), .weedle⟩,
    ⟨c!"required", .path1 c!"Option" (.path0 c!"Required"), .weedle⟩,
    ⟨c!"type_", .path0 c!"Type", .weedle⟩,
    ⟨c!"identifier", .path0 c!"Identifier", .weedle⟩,
    ⟨c!"default", .path1 c!"Option" (.path0 c!"Default"), .weedle⟩,
    ⟨c!"semi_colon", .path0 c!"SemiColon", .weedle⟩]) := by decide +kernel

theorem find_InterfaceMembers : find decls c!"InterfaceMembers" = some (
  .alias c!"InterfaceMembers" (.path1 c!"Vec" (.path0 c!"InterfaceMember"))) := by decide +kernel

theorem find_Inheritance : find decls c!"Inheritance" = some (
  .struct c!"Inheritance" [] [
    ⟨c!"colon", .path0 c!"Colon", .weedle⟩,
    ⟨c!"identifier", .path0 c!"Identifier", .weedle⟩]) := by decide +kernel

theorem find_InterfaceMember : find decls c!"InterfaceMember" = some (
  .enum c!"InterfaceMember" [
    (c!"Const", .path0 c!"ConstMember"),
    (c!"Attribute", .path0 c!"AttributeInterfaceMember"),
    (c!"Constructor", .path0 c!"ConstructorInterfaceMember"),
    (c!"Operation", .path0 c!"OperationInterfaceMember"),
    (c!"Iterable", .path0 c!"IterableInterfaceMember"),
    (c!"AsyncIterable", .path0 c!"AsyncIterableInterfaceMember"),
    (c!"Maplike", .path0 c!"MaplikeInterfaceMember"),
    (c!"Setlike", .path0 c!"SetlikeInterfaceMember"),
    (c!"Stringifier", .path0 c!"StringifierMember")]) := by decide +kernel

theorem find_ConstMember : find decls c!"ConstMember" = some (
  .struct c!"ConstMember" [] [
    ⟨c!"attributes", .path1 c!"Option" (.path0 c!"ExtendedAttributeList"), .weedle⟩,
    ⟨c!"const_", .path0 c!"Const", .weedle⟩,
    ⟨c!"const_type", .path0 c!"ConstType", .weedle⟩,
    ⟨c!"identifier", .path0 c!"Identifier", .weedle⟩,
    ⟨c!"assign", .path0 c!"Assign", .weedle⟩,
    ⟨c!"const_value", .path0 c!"ConstValue", .weedle⟩,
    ⟨c!"semi_colon", .path0 c!"SemiColon", .weedle⟩]) := by decide +kernel

theorem find_AttributeInterfaceMember : find decls c!"AttributeInterfaceMember" = some (
  .struct c!"AttributeInterfaceMember" [] [
    ⟨c!"attributes", .path1 c!"Option" (.path0 c!"ExtendedAttributeList"), .weedle⟩,
    ⟨c!"modifier", .path1 c!"Option" (.path0 c!"StringifierOrInheritOrStatic"), .weedle⟩,
    ⟨c!"readonly", .path1 c!"Option" (.path0 c!"ReadOnly"), .weedle⟩,
    ⟨c!"attribute", .path0 c!"Attribute", .weedle⟩,
    ⟨c!"type_", .path0 c!"AttributedType", .weedle⟩,
    ⟨c!"identifier", .path0 c!"Identifier", .weedle⟩,
    ⟨c!"semi_colon", .path0 c!"SemiColon", .weedle⟩]) := by decide +kernel

theorem find_ConstructorInterfaceMember : find decls c!"ConstructorInterfaceMember" = some (
  .struct c!"ConstructorInterfaceMember" [] [
    ⟨c!"attributes", .path1 c!"Option" (.path0 c!"ExtendedAttributeList"), .weedle⟩,
    ⟨c!"constructor", .path0 c!"Constructor", .weedle⟩,
    ⟨c!"args", .path1 c!"Parenthesized" (.path0 c!"ArgumentList"), .weedle⟩,
    ⟨c!"semi_colon", .path0 c!"SemiColon", .weedle⟩]) := by decide +kernel

theorem find_OperationInterfaceMember : find decls c!"OperationInterfaceMember" = some (
  .struct c!"OperationInterfaceMember" [] [
    ⟨c!"attributes", .path1 c!"Option" (.path0 c!"ExtendedAttributeList"), .weedle⟩,
    ⟨c!"modifier", .path1 c!"Option" (.path0 c!"StringifierOrStatic"), .weedle⟩,
    ⟨c!"special", .path1 c!"Option" (.path0 c!"Special"), .weedle⟩,
    ⟨c!"return_type", .path0 c!"ReturnType", .weedle⟩,
    ⟨c!"identifier", .path1 c!"Option" (.path0 c!"Identifier"), .weedle⟩,
    ⟨c!"args", .path1 c!"Parenthesized" (.path0 c!"ArgumentList"), .weedle⟩,
    ⟨c!"semi_colon", .path0 c!"SemiColon", .weedle⟩]) := by decide +kernel

theorem find_IterableInterfaceMember : find decls c!"IterableInterfaceMember" = some (
  .enum c!"IterableInterfaceMember" [
    (c!"Single", .path0 c!"SingleTypedIterable"),
    (c!"Double", .path0 c!"DoubleTypedIterable")]) := by decide +kernel

theorem find_SingleTypedIterable : find decls c!"SingleTypedIterable" = some (
  .struct c!"SingleTypedIterable" [] [
    ⟨c!"attributes", .path1 c!"Option" (.path0 c!"ExtendedAttributeList"), .weedle⟩,
    ⟨c!"iterable", .path0 c!"Iterable", .weedle⟩,
    ⟨c!"generics", .path1 c!"Generics" (.path0 c!"AttributedType"), .weedle⟩,
    ⟨c!"semi_colon", .path0 c!"SemiColon", .weedle⟩]) := by decide +kernel

theorem find_DoubleTypedIterable : find decls c!"DoubleTypedIterable" = some (
  .struct c!"DoubleTypedIterable" [] [
    ⟨c!"attributes", .path1 c!"Option" (.path0 c!"ExtendedAttributeList"), .weedle⟩,
    ⟨c!"iterable", .path0 c!"Iterable", .weedle⟩,
    ⟨c!"generics", .path1 c!"Generics" (.path3 c!"(,,)" (.path0 c!"AttributedType") (.path0 c!"Comma") (.path0 c!"AttributedType")), .weedle⟩,
    ⟨c!"semi_colon", .path0 c!"SemiColon", .weedle⟩]) := by decide +kernel

theorem find_AsyncIterableInterfaceMember : find decls c!"AsyncIterableInterfaceMember" = some (
  .enum c!"AsyncIterableInterfaceMember" [
    (c!"Single", .path0 c!"SingleTypedAsyncIterable"),
    (c!"Double", .path0 c!"DoubleTypedAsyncIterable")]) := by decide +kernel

theorem find_SingleTypedAsyncIterable : find decls c!"SingleTypedAsyncIterable" = some (
  .struct c!"SingleTypedAsyncIterable" [] [
    ⟨c!"attributes", .path1 c!"Option" (.path0 c!"ExtendedAttributeList"), .weedle⟩,
    ⟨c!"async_iterable", .path2 c!"(,)" (.path0 c!"Async") (.path0 c!"Iterable"), .weedle⟩,
    ⟨c!"generics", .path1 c!"Generics" (.path0 c!"AttributedType"), .weedle⟩,
    ⟨c!"args", .path1 c!"Option" (.path1 c!"Parenthesized" (.path0 c!"ArgumentList")), .weedle⟩,
    ⟨c!"semi_colon", .path0 c!"SemiColon", .weedle⟩]) := by decide +kernel

theorem find_DoubleTypedAsyncIterable : find decls c!"DoubleTypedAsyncIterable" = some (
  .struct c!"DoubleTypedAsyncIterable" [] [
    ⟨c!"attributes", .path1 c!"Option" (.path0 c!"ExtendedAttributeList"), .weedle⟩,
    ⟨c!"async_iterable", .path2 c!"(,)" (.path0 c!"Async") (.path0 c!"Iterable"), .weedle⟩,
    ⟨c!"generics", .path1 c!"Generics" (.path3 c!"(,,)" (.path0 c!"AttributedType") (.path0 c!"Comma") (.path0 c!"AttributedType")), .weedle⟩,
    ⟨c!"args", .path1 c!"Option" (.path1 c!"Parenthesized" (.path0 c!"ArgumentList")), .weedle⟩,
    ⟨c!"semi_colon", .path0 c!"SemiColon", .weedle⟩]) := by decide +kernel

theorem find_MaplikeInterfaceMember : find decls c!"MaplikeInterfaceMember" = some (
  .struct c!"MaplikeInterfaceMember" [] [
    ⟨c!"attributes", .path1 c!"Option" (.path0 c!"ExtendedAttributeList"), .weedle⟩,
    ⟨c!"readonly", .path1 c!"Option" (.path0 c!"ReadOnly"), .weedle⟩,
    ⟨c!"maplike", .path0 c!"Maplike", .weedle⟩,
    ⟨c!"generics", .path1 c!"Generics" (.path3 c!"(,,)" (.path0 c!"AttributedType") (.path0 c!"Comma") (.path0 c!"AttributedType")), .weedle⟩,
    ⟨c!"semi_colon", .path0 c!"SemiColon", .weedle⟩]) := by decide +kernel

theorem find_SetlikeInterfaceMember : find decls c!"SetlikeInterfaceMember" = some (
  .struct c!"SetlikeInterfaceMember" [] [
    ⟨c!"attributes", .path1 c!"Option" (.path0 c!"ExtendedAttributeList"), .weedle⟩,
    ⟨c!"readonly", .path1 c!"Option" (.path0 c!"ReadOnly"), .weedle⟩,
    ⟨c!"setlike", .path0 c!"Setlike", .weedle⟩,
    ⟨c!"generics", .path1 c!"Generics" (.path0 c!"AttributedType"), .weedle⟩,
    ⟨c!"semi_colon", .path0 c!"SemiColon", .weedle⟩]) := by decide +kernel

theorem find_StringifierMember : find decls c!"StringifierMember" = some (
  .struct c!"StringifierMember" [] [
    ⟨c!"attributes", .path1 c!"Option" (.path0 c!"ExtendedAttributeList"), .weedle⟩,
    ⟨c!"stringifier", .path0 c!"Stringifier", .weedle⟩,
    ⟨c!"semi_colon", .path0 c!"SemiColon", .weedle⟩]) := by decide +kernel

theorem find_Special : find decls c!"Special" = some (
  .enum c!"Special" [
    (c!"Getter", .path0 c!"Getter"),
    (c!"Setter", .path0 c!"Setter"),
    (c!"Deleter", .path0 c!"Deleter"),
    (c!"LegacyCaller", .path0 c!"LegacyCaller")]) := by decide +kernel

theorem find_StringifierOrInheritOrStatic : find decls c!"StringifierOrInheritOrStatic" = some (
  .enum c!"StringifierOrInheritOrStatic" [
    (c!"Stringifier", .path0 c!"Stringifier"),
    (c!"Inherit", .path0 c!"Inherit"),
    (c!"Static", .path0 c!"Static")]) := by decide +kernel

theorem find_StringifierOrStatic : find decls c!"StringifierOrStatic" = some (
  .enum c!"StringifierOrStatic" [
    (c!"Stringifier", .path0 c!"Stringifier"),
    (c!"Static", .path0 c!"Static")]) := by decide +kernel

theorem find_Definitions : find decls c!"Definitions" = some (
  .alias c!"Definitions" (.path1 c!"Vec" (.path0 c!"Definition"))) := by decide +kernel

theorem find_Definition : find decls c!"Definition" = some (
  .enum c!"Definition" [
    (c!"Callback", .path0 c!"CallbackDefinition"),
    (c!"CallbackInterface", .path0 c!"CallbackInterfaceDefinition"),
    (c!"Interface", .path0 c!"InterfaceDefinition"),
    (c!"InterfaceMixin", .path0 c!"InterfaceMixinDefinition"),
    (c!"Namespace", .path0 c!"NamespaceDefinition"),
    (c!"Dictionary", .path0 c!"DictionaryDefinition"),
    (c!"PartialInterface", .path0 c!"PartialInterfaceDefinition"),
    (c!"PartialInterfaceMixin", .path0 c!"PartialInterfaceMixinDefinition"),
    (c!"PartialDictionary", .path0 c!"PartialDictionaryDefinition"),
    (c!"PartialNamespace", .path0 c!"PartialNamespaceDefinition"),
    (c!"Enum", .path0 c!"EnumDefinition"),
    (c!"Typedef", .path0 c!"TypedefDefinition"),
    (c!"IncludesStatement", .path0 c!"IncludesStatementDefinition"),
    (c!"Implements", .path0 c!"ImplementsDefinition")]) := by decide +kernel

theorem find_CallbackDefinition : find decls c!"CallbackDefinition" = some (
  .struct c!"CallbackDefinition" [] [
    ⟨c!"attributes", .path1 c!"Option" (.path0 c!"ExtendedAttributeList"), .weedle⟩,
    ⟨c!"callback", .path0 c!"Callback", .weedle⟩,
    ⟨c!"identifier", .path0 c!"Identifier", .weedle⟩,
    ⟨c!"assign", .path0 c!"Assign", .weedle⟩,
    ⟨c!"return_type", .path0 c!"ReturnType", .weedle⟩,
    ⟨c!"arguments", .path1 c!"Parenthesized" (.path0 c!"ArgumentList"), .weedle⟩,
    ⟨c!"semi_colon", .path0 c!"SemiColon", .weedle⟩]) := by decide +kernel

theorem find_CallbackInterfaceDefinition : find decls c!"CallbackInterfaceDefinition" = some (
  .struct c!"CallbackInterfaceDefinition" [] [
    ⟨c!"attributes", .path1 c!"Option" (.path0 c!"ExtendedAttributeList"), .weedle⟩,
    ⟨c!"callback", .path0 c!"Callback", .weedle⟩,
    ⟨c!"interface", .path0 c!"Interface", .weedle⟩,
    ⟨c!"identifier", .path0 c!"Identifier", .weedle⟩,
    ⟨c!"inheritance", .path1 c!"Option" (.path0 c!"Inheritance"), .weedle⟩,
    ⟨c!"members", .path1 c!"Braced" (.path0 c!"InterfaceMembers"), .weedle⟩,
    ⟨c!"semi_colon", .path0 c!"SemiColon", .weedle⟩]) := by decide +kernel

theorem find_InterfaceDefinition : find decls c!"InterfaceDefinition" = some (
  .struct c!"InterfaceDefinition" [] [
    ⟨c!"attributes", .path1 c!"Option" (.path0 c!"ExtendedAttributeList"), .weedle⟩,
    ⟨c!"interface", .path0 c!"Interface", .weedle⟩,
    ⟨c!"identifier", .path0 c!"Identifier", .weedle⟩,
    ⟨c!"inheritance", .path1 c!"Option" (.path0 c!"Inheritance"), .weedle⟩,
    ⟨c!"members", .path1 c!"Braced" (.path0 c!"InterfaceMembers"), .weedle⟩,
    ⟨c!"semi_colon", .path0 c!"SemiColon", .weedle⟩]) := by decide +kernel

theorem find_InterfaceMixinDefinition : find decls c!"InterfaceMixinDefinition" = some (
  .struct c!"InterfaceMixinDefinition" [] [
    ⟨c!"attributes", .path1 c!"Option" (.path0 c!"ExtendedAttributeList"), .weedle⟩,
    ⟨c!"interface", .path0 c!"Interface", .weedle⟩,
    ⟨c!"mixin", .path0 c!"Mixin", .weedle⟩,
    ⟨c!"identifier", .path0 c!"Identifier", .weedle⟩,
    ⟨c!"members", .path1 c!"Braced" (.path0 c!"MixinMembers"), .weedle⟩,
    ⟨c!"semi_colon", .path0 c!"SemiColon", .weedle⟩]) := by decide +kernel

theorem find_NamespaceDefinition : find decls c!"NamespaceDefinition" = some (
  .struct c!"NamespaceDefinition" [] [
    ⟨c!"attributes", .path1 c!"Option" (.path0 c!"ExtendedAttributeList"), .weedle⟩,
    ⟨c!"namespace", .path0 c!"Namespace", .weedle⟩,
    ⟨c!"identifier", .path0 c!"Identifier", .weedle⟩,
    ⟨c!"members", .path1 c!"Braced" (.path0 c!"NamespaceMembers"), .weedle⟩,
    ⟨c!"semi_colon", .path0 c!"SemiColon", .weedle⟩]) := by decide +kernel

theorem find_DictionaryDefinition : find decls c!"DictionaryDefinition" = some (
  .struct c!"DictionaryDefinition" [] [
    ⟨c!"attributes", .path1 c!"Option" (.path0 c!"ExtendedAttributeList"), .weedle⟩,
    ⟨c!"dictionary", .path0 c!"Dictionary", .weedle⟩,
    ⟨c!"identifier", .path0 c!"Identifier", .weedle⟩,
    ⟨c!"inheritance", .path1 c!"Option" (.path0 c!"Inheritance"), .weedle⟩,
    ⟨c!"members", .path1 c!"Braced" (.path0 c!"DictionaryMembers"), .weedle⟩,
    ⟨c!"semi_colon", .path0 c!"SemiColon", .weedle⟩]) := by decide +kernel

theorem find_PartialInterfaceDefinition : find decls c!"PartialInterfaceDefinition" = some (
  .struct c!"PartialInterfaceDefinition" [] [
    ⟨c!"attributes", .path1 c!"Option" (.path0 c!"ExtendedAttributeList"), .weedle⟩,
    ⟨c!"partial", .path0 c!"Partial", .weedle⟩,
    ⟨c!"interface", .path0 c!"Interface", .weedle⟩,
    ⟨c!"identifier", .path0 c!"Identifier", .weedle⟩,
    ⟨c!"members", .path1 c!"Braced" (.path0 c!"InterfaceMembers"), .weedle⟩,
    ⟨c!"semi_colon", .path0 c!"SemiColon", .weedle⟩]) := by decide +kernel

theorem find_PartialInterfaceMixinDefinition : find decls c!"PartialInterfaceMixinDefinition" = some (
  .struct c!"PartialInterfaceMixinDefinition" [] [
    ⟨c!"attributes", .path1 c!"Option" (.path0 c!"ExtendedAttributeList"), .weedle⟩,
    ⟨c!"partial", .path0 c!"Partial", .weedle⟩,
    ⟨c!"interface", .path0 c!"Interface", .weedle⟩,
    ⟨c!"mixin", .path0 c!"Mixin", .weedle⟩,
    ⟨c!"identifier", .path0 c!"Identifier", .weedle⟩,
    ⟨c!"members", .path1 c!"Braced" (.path0 c!"MixinMembers"), .weedle⟩,
    ⟨c!"semi_colon", .path0 c!"SemiColon", .weedle⟩]) := by decide +kernel

theorem find_PartialDictionaryDefinition : find decls c!"PartialDictionaryDefinition" = some (
  .struct c!"PartialDictionaryDefinition" [] [
    ⟨c!"attributes", .path1 c!"Option" (.path0 c!"ExtendedAttributeList"), .weedle⟩,
    ⟨c!"partial", .path0 c!"Partial", .weedle⟩,
    ⟨c!"dictionary", .path0 c!"Dictionary", .weedle⟩,
    ⟨c!"identifier", .path0 c!"Identifier", .weedle⟩,
    ⟨c!"members", .path1 c!"Braced" (.path0 c!"DictionaryMembers"), .weedle⟩,
    ⟨c!"semi_colon", .path0 c!"SemiColon", .weedle⟩]) := by decide +kernel

theorem find_PartialNamespaceDefinition : find decls c!"PartialNamespaceDefinition" = some (
  .struct c!"PartialNamespaceDefinition" [] [
    ⟨c!"attributes", .path1 c!"Option" (.path0 c!"ExtendedAttributeList"), .weedle⟩,
    ⟨c!"partial", .path0 c!"Partial", .weedle⟩,
    ⟨c!"namespace", .path0 c!"Namespace", .weedle⟩,
    ⟨c!"identifier", .path0 c!"Identifier", .weedle⟩,
    ⟨c!"members", .path1 c!"Braced" (.path0 c!"NamespaceMembers"), .weedle⟩,
    ⟨c!"semi_colon", .path0 c!"SemiColon", .weedle⟩]) := by decide +kernel

theorem find_EnumDefinition : find decls c!"EnumDefinition" = some (
  .struct c!"EnumDefinition" [] [
    ⟨c!"attributes", .path1 c!"Option" (.path0 c!"ExtendedAttributeList"), .weedle⟩,
    ⟨c!"enum_", .path0 c!"Enum", .weedle⟩,
    ⟨c!"identifier", .path0 c!"Identifier", .weedle⟩,
    ⟨c!"values", .path1 c!"Braced" (.path0 c!"EnumValueList"), .weedle⟩,
    ⟨c!"semi_colon", .path0 c!"SemiColon", .weedle⟩]) := by decide +kernel

theorem find_TypedefDefinition : find decls c!"TypedefDefinition" = some (
  .struct c!"TypedefDefinition" [] [
    ⟨c!"attributes", .path1 c!"Option" (.path0 c!"ExtendedAttributeList"), .weedle⟩,
    ⟨c!"typedef", .path0 c!"Typedef", .weedle⟩,
    ⟨c!"type_", .path0 c!"AttributedType", .weedle⟩,
    ⟨c!"identifier", .path0 c!"Identifier", .weedle⟩,
    ⟨c!"semi_colon", .path0 c!"SemiColon", .weedle⟩]) := by decide +kernel

theorem find_IncludesStatementDefinition : find decls c!"IncludesStatementDefinition" = some (
  .struct c!"IncludesStatementDefinition" [] [
    ⟨c!"attributes", .path1 c!"Option" (.path0 c!"ExtendedAttributeList"), .weedle⟩,
    ⟨c!"lhs_identifier", .path0 c!"Identifier", .weedle⟩,
    ⟨c!"includes", .path0 c!"Includes", .weedle⟩,
    ⟨c!"rhs_identifier", .path0 c!"Identifier", .weedle⟩,
    ⟨c!"semi_colon", .path0 c!"SemiColon", .weedle⟩]) := by decide +kernel

theorem find_ImplementsDefinition : find decls c!"ImplementsDefinition" = some (
  .struct c!"ImplementsDefinition" [] [
    ⟨c!"attributes", .path1 c!"Option" (.path0 c!"ExtendedAttributeList"), .weedle⟩,
    ⟨c!"lhs_identifier", .path0 c!"Identifier", .weedle⟩,
    ⟨c!"includes", .path0 c!"Implements", .weedle⟩,
    ⟨c!"rhs_identifier", .path0 c!"Identifier", .weedle⟩,
    ⟨c!"semi_colon", .path0 c!"SemiColon", .weedle⟩]) := by decide +kernel

theorem find_EnumValueList : find decls c!"EnumValueList" = some (
  .alias c!"EnumValueList" (.path2 c!"PunctuatedNonEmpty" (.path0 c!"StringLit") (.path0 c!"Comma"))) := by decide +kernel

theorem find_IntegerLit : find decls c!"IntegerLit" = some (
  .enum c!"IntegerLit" [
    (c!"Dec", .path0 c!"DecLit"),
    (c!"Hex", .path0 c!"HexLit"),
    (c!"Oct", .path0 c!"OctLit")]) := by decide +kernel

theorem find_DecLit : find decls c!"DecLit" = some (
  .newtype c!"DecLit" (.ws (.recognize (.bind none (.opt (.char '-')) (.bind none (.oneOf c!"123456789") (.bind none (.takeWhile (.digit)) (.ret (.unit)))))))) := by decide +kernel

theorem find_HexLit : find decls c!"HexLit" = some (
  .newtype c!"HexLit" (.ws (.recognize (.bind none (.opt (.char '-')) (.bind none (.char '0') (.bind none (.alt (.char 'x') (.alt (.char 'X') (.altEnd))) (.bind none (.takeWhile (.hexdigit)) (.ret (.unit))))))))) := by decide +kernel

theorem find_OctLit : find decls c!"OctLit" = some (
  .newtype c!"OctLit" (.ws (.recognize (.bind none (.opt (.char '-')) (.bind none (.char '0') (.bind none (.takeWhile (.and (.ge '0') (.le '7'))) (.ret (.unit)))))))) := by decide +kernel

theorem find_StringLit : find decls c!"StringLit" = some (
  .newtype c!"StringLit" (.ws (.bind none (.char '\"') (.bind (some c!"s") (.takeWhile (.ne '\"')) (.bind none (.char '\"') (.ret (.var c!"s"))))))) := by decide +kernel

theorem find_DefaultValue : find decls c!"DefaultValue" = some (
  .enum c!"DefaultValue" [
    (c!"Boolean", .path0 c!"BooleanLit"),
    (c!"EmptyArray", .path0 c!"EmptyArrayLit"),
    (c!"EmptyDictionary", .path0 c!"EmptyDictionaryLit"),
    (c!"Float", .path0 c!"FloatLit"),
    (c!"Integer", .path0 c!"IntegerLit"),
    (c!"Null", .path0 c!"Null"),
    (c!"String", .path0 c!"StringLit")]) := by decide +kernel

theorem find_EmptyArrayLit : find decls c!"EmptyArrayLit" = some (
  .struct c!"EmptyArrayLit" [] [
    ⟨c!"open_bracket", .path0 c!"OpenBracket", .weedle⟩,
    ⟨c!"close_bracket", .path0 c!"CloseBracket", .weedle⟩]) := by decide +kernel

theorem find_EmptyDictionaryLit : find decls c!"EmptyDictionaryLit" = some (
  .struct c!"EmptyDictionaryLit" [] [
    ⟨c!"open_brace", .path0 c!"OpenBrace", .weedle⟩,
    ⟨c!"close_brace", .path0 c!"CloseBrace", .weedle⟩]) := by decide +kernel

theorem find_ConstValue : find decls c!"ConstValue" = some (
  .enum c!"ConstValue" [
    (c!"Boolean", .path0 c!"BooleanLit"),
    (c!"Float", .path0 c!"FloatLit"),
    (c!"Integer", .path0 c!"IntegerLit"),
    (c!"Null", .path0 c!"Null")]) := by decide +kernel

theorem find_BooleanLit : find decls c!"BooleanLit" = some (
  .newtype c!"BooleanLit" (.alt (.map (.weedle (.path0 c!"True")) c!"_" (.bool true)) (.alt (.map (.weedle (.path0 c!"False")) c!"_" (.bool false)) (.altEnd)))) := by decide +kernel

theorem find_FloatLit : find decls c!"FloatLit" = some (
  .enum c!"FloatLit" [
    (c!"Value", .path0 c!"FloatValueLit"),
    (c!"NegInfinity", .path0 c!"NegInfinity"),
    (c!"Infinity", .path0 c!"Infinity"),
    (c!"NaN", .path0 c!"NaN")]) := by decide +kernel

theorem find_FloatValueLit : find decls c!"FloatValueLit" = some (
  .newtype c!"FloatValueLit" (.ws (.recognize (.bind none (.opt (.char '-')) (.bind none (.alt (.bind none (.alt (.bind none (.takeWhile1 (.digit)) (.bind none (.char '.') (.bind none (.takeWhile (.digit)) (.ret (.unit))))) (.alt (.bind none (.takeWhile (.digit)) (.bind none (.char '.') (.bind none (.takeWhile1 (.digit)) (.ret (.unit))))) (.altEnd))) (.bind none (.opt (.bind none (.alt (.char 'e') (.alt (.char 'E') (.altEnd))) (.bind none (.opt (.alt (.char '+') (.alt (.char '-') (.altEnd)))) (.bind none (.takeWhile1 (.digit)) (.ret (.unit)))))) (.ret (.unit)))) (.alt (.bind none (.takeWhile1 (.digit)) (.bind none (.alt (.char 'e') (.alt (.char 'E') (.altEnd))) (.bind none (.opt (.alt (.char '+') (.alt (.char '-') (.altEnd)))) (.bind none (.takeWhile1 (.digit)) (.ret (.unit)))))) (.altEnd))) (.ret (.unit))))))) := by decide +kernel

theorem find_MixinMembers : find decls c!"MixinMembers" = some (
  .alias c!"MixinMembers" (.path1 c!"Vec" (.path0 c!"MixinMember"))) := by decide +kernel

theorem find_MixinMember : find decls c!"MixinMember" = some (
  .enum c!"MixinMember" [
    (c!"Const", .path0 c!"ConstMember"),
    (c!"Operation", .path0 c!"OperationMixinMember"),
    (c!"Attribute", .path0 c!"AttributeMixinMember"),
    (c!"Stringifier", .path0 c!"StringifierMember")]) := by decide +kernel

theorem find_OperationMixinMember : find decls c!"OperationMixinMember" = some (
  .struct c!"OperationMixinMember" [] [
    ⟨c!"attributes", .path1 c!"Option" (.path0 c!"ExtendedAttributeList"), .weedle⟩,
    ⟨c!"stringifier", .path1 c!"Option" (.path0 c!"Stringifier"), .weedle⟩,
    ⟨c!"return_type", .path0 c!"ReturnType", .weedle⟩,
    ⟨c!"identifier", .path1 c!"Option" (.path0 c!"Identifier"), .weedle⟩,
    ⟨c!"args", .path1 c!"Parenthesized" (.path0 c!"ArgumentList"), .weedle⟩,
    ⟨c!"semi_colon", .path0 c!"SemiColon", .weedle⟩]) := by decide +kernel

theorem find_AttributeMixinMember : find decls c!"AttributeMixinMember" = some (
  .struct c!"AttributeMixinMember" [] [
    ⟨c!"attributes", .path1 c!"Option" (.path0 c!"ExtendedAttributeList"), .weedle⟩,
    ⟨c!"stringifier", .path1 c!"Option" (.path0 c!"Stringifier"), .weedle⟩,
    ⟨c!"readonly", .path1 c!"Option" (.path0 c!"ReadOnly"), .weedle⟩,
    ⟨c!"attribute", .path0 c!"Attribute", .weedle⟩,
    ⟨c!"type_", .path0 c!"AttributedType", .weedle⟩,
    ⟨c!"identifier", .path0 c!"Identifier", .weedle⟩,
    ⟨c!"semi_colon", .path0 c!"SemiColon", .weedle⟩]) := by decide +kernel

theorem find_NamespaceMembers : find decls c!"NamespaceMembers" = some (
  .alias c!"NamespaceMembers" (.path1 c!"Vec" (.path0 c!"NamespaceMember"))) := by decide +kernel

theorem find_NamespaceMember : find decls c!"NamespaceMember" = some (
  .enum c!"NamespaceMember" [
    (c!"Const", .path0 c!"ConstNamespaceMember"),
    (c!"Operation", .path0 c!"OperationNamespaceMember"),
    (c!"Attribute", .path0 c!"AttributeNamespaceMember")]) := by decide +kernel

theorem find_ConstNamespaceMember : find decls c!"ConstNamespaceMember" = some (
  .struct c!"ConstNamespaceMember" [] [
    ⟨c!"attributes", .path1 c!"Option" (.path0 c!"ExtendedAttributeList"), .weedle⟩,
    ⟨c!"const_", .path0 c!"Const", .weedle⟩,
    ⟨c!"const_type", .path0 c!"ConstType", .weedle⟩,
    ⟨c!"identifier", .path0 c!"Identifier", .weedle⟩,
    ⟨c!"assign", .path0 c!"Assign", .weedle⟩,
    ⟨c!"const_value", .path0 c!"ConstValue", .weedle⟩,
    ⟨c!"semi_colon", .path0 c!"SemiColon", .weedle⟩]) := by decide +kernel

theorem find_OperationNamespaceMember : find decls c!"OperationNamespaceMember" = some (
  .struct c!"OperationNamespaceMember" [] [
    ⟨c!"attributes", .path1 c!"Option" (.path0 c!"ExtendedAttributeList"), .weedle⟩,
    ⟨c!"return_type", .path0 c!"ReturnType", .weedle⟩,
    ⟨c!"identifier", .path1 c!"Option" (.path0 c!"Identifier"), .weedle⟩,
    ⟨c!"args", .path1 c!"Parenthesized" (.path0 c!"ArgumentList"), .weedle⟩,
    ⟨c!"semi_colon", .path0 c!"SemiColon", .weedle⟩]) := by decide +kernel

theorem find_AttributeNamespaceMember : find decls c!"AttributeNamespaceMember" = some (
  .struct c!"AttributeNamespaceMember" [] [
    ⟨c!"attributes", .path1 c!"Option" (.path0 c!"ExtendedAttributeList"), .weedle⟩,
    ⟨c!"readonly", .path0 c!"ReadOnly", .weedle⟩,
    ⟨c!"attribute", .path0 c!"Attribute", .weedle⟩,
    ⟨c!"type_", .path0 c!"AttributedType", .weedle⟩,
    ⟨c!"identifier", .path0 c!"Identifier", .weedle⟩,
    ⟨c!"semi_colon", .path0 c!"SemiColon", .weedle⟩]) := by decide +kernel

theorem find_OpenParen : find decls c!"OpenParen" = some (
  .fn c!"OpenParen" [] (.bind none (.ws (.tag c!"(")) (.ret (.token c!"OpenParen")))) := by decide +kernel

theorem find_CloseParen : find decls c!"CloseParen" = some (
  .fn c!"CloseParen" [] (.bind none (.ws (.tag c!")")) (.ret (.token c!"CloseParen")))) := by decide +kernel

theorem find_OpenBracket : find decls c!"OpenBracket" = some (
  .fn c!"OpenBracket" [] (.bind none (.ws (.tag c!"[")) (.ret (.token c!"OpenBracket")))) := by decide +kernel

theorem find_CloseBracket : find decls c!"CloseBracket" = some (
  .fn c!"CloseBracket" [] (.bind none (.ws (.tag c!"]")) (.ret (.token c!"CloseBracket")))) := by decide +kernel

theorem find_OpenBrace : find decls c!"OpenBrace" = some (
  .fn c!"OpenBrace" [] (.bind none (.ws (.tag c!"{")) (.ret (.token c!"OpenBrace")))) := by decide +kernel

theorem find_CloseBrace : find decls c!"CloseBrace" = some (
  .fn c!"CloseBrace" [] (.bind none (.ws (.tag c!"}")) (.ret (.token c!"CloseBrace")))) := by decide +kernel

theorem find_Comma : find decls c!"Comma" = some (
  .fn c!"Comma" [] (.bind none (.ws (.tag c!",")) (.ret (.token c!"Comma")))) := by decide +kernel

theorem find_Minus : find decls c!"Minus" = some (
  .fn c!"Minus" [] (.bind none (.ws (.tag c!"-")) (.ret (.token c!"Minus")))) := by decide +kernel

theorem find_Dot : find decls c!"Dot" = some (
  .fn c!"Dot" [] (.bind none (.ws (.tag c!".")) (.ret (.token c!"Dot")))) := by decide +kernel

theorem find_Ellipsis : find decls c!"Ellipsis" = some (
  .fn c!"Ellipsis" [] (.bind none (.ws (.tag c!"...")) (.ret (.token c!"Ellipsis")))) := by decide +kernel

theorem find_Colon : find decls c!"Colon" = some (
  .fn c!"Colon" [] (.bind none (.ws (.tag c!":")) (.ret (.token c!"Colon")))) := by decide +kernel

theorem find_SemiColon : find decls c!"SemiColon" = some (
  .fn c!"SemiColon" [] (.bind none (.ws (.tag c!";")) (.ret (.token c!"SemiColon")))) := by decide +kernel

theorem find_LessThan : find decls c!"LessThan" = some (
  .fn c!"LessThan" [] (.bind none (.ws (.tag c!"<")) (.ret (.token c!"LessThan")))) := by decide +kernel

theorem find_Assign : find decls c!"Assign" = some (
  .fn c!"Assign" [] (.bind none (.ws (.tag c!"=")) (.ret (.token c!"Assign")))) := by decide +kernel

theorem find_GreaterThan : find decls c!"GreaterThan" = some (
  .fn c!"GreaterThan" [] (.bind none (.ws (.tag c!">")) (.ret (.token c!"GreaterThan")))) := by decide +kernel

theorem find_QMark : find decls c!"QMark" = some (
  .fn c!"QMark" [] (.bind none (.ws (.tag c!"?")) (.ret (.token c!"QMark")))) := by decide +kernel

theorem find_Asterisk : find decls c!"Asterisk" = some (
  .fn c!"Asterisk" [] (.bind none (.ws (.tag c!"*")) (.ret (.token c!"Asterisk")))) := by decide +kernel

theorem find_Or : find decls c!"Or" = some (
  .fn c!"Or" [] (.bind none (.ws (.identTag c!"or")) (.ret (.token c!"Or")))) := by decide +kernel

theorem find_Optional : find decls c!"Optional" = some (
  .fn c!"Optional" [] (.bind none (.ws (.identTag c!"optional")) (.ret (.token c!"Optional")))) := by decide +kernel

theorem find_Async : find decls c!"Async" = some (
  .fn c!"Async" [] (.bind none (.ws (.identTag c!"async")) (.ret (.token c!"Async")))) := by decide +kernel

theorem find_Attribute : find decls c!"Attribute" = some (
  .fn c!"Attribute" [] (.bind none (.ws (.identTag c!"attribute")) (.ret (.token c!"Attribute")))) := by decide +kernel

theorem find_Callback : find decls c!"Callback" = some (
  .fn c!"Callback" [] (.bind none (.ws (.identTag c!"callback")) (.ret (.token c!"Callback")))) := by decide +kernel

theorem find_Const : find decls c!"Const" = some (
  .fn c!"Const" [] (.bind none (.ws (.identTag c!"const")) (.ret (.token c!"Const")))) := by decide +kernel

theorem find_Deleter : find decls c!"Deleter" = some (
  .fn c!"Deleter" [] (.bind none (.ws (.identTag c!"deleter")) (.ret (.token c!"Deleter")))) := by decide +kernel

theorem find_Dictionary : find decls c!"Dictionary" = some (
  .fn c!"Dictionary" [] (.bind none (.ws (.identTag c!"dictionary")) (.ret (.token c!"Dictionary")))) := by decide +kernel

theorem find_Enum : find decls c!"Enum" = some (
  .fn c!"Enum" [] (.bind none (.ws (.identTag c!"enum")) (.ret (.token c!"Enum")))) := by decide +kernel

theorem find_Getter : find decls c!"Getter" = some (
  .fn c!"Getter" [] (.bind none (.ws (.identTag c!"getter")) (.ret (.token c!"Getter")))) := by decide +kernel

theorem find_Includes : find decls c!"Includes" = some (
  .fn c!"Includes" [] (.bind none (.ws (.identTag c!"includes")) (.ret (.token c!"Includes")))) := by decide +kernel

theorem find_Inherit : find decls c!"Inherit" = some (
  .fn c!"Inherit" [] (.bind none (.ws (.identTag c!"inherit")) (.ret (.token c!"Inherit")))) := by decide +kernel

theorem find_Interface : find decls c!"Interface" = some (
  .fn c!"Interface" [] (.bind none (.ws (.identTag c!"interface")) (.ret (.token c!"Interface")))) := by decide +kernel

theorem find_Iterable : find decls c!"Iterable" = some (
  .fn c!"Iterable" [] (.bind none (.ws (.identTag c!"iterable")) (.ret (.token c!"Iterable")))) := by decide +kernel

theorem find_Maplike : find decls c!"Maplike" = some (
  .fn c!"Maplike" [] (.bind none (.ws (.identTag c!"maplike")) (.ret (.token c!"Maplike")))) := by decide +kernel

theorem find_Namespace : find decls c!"Namespace" = some (
  .fn c!"Namespace" [] (.bind none (.ws (.identTag c!"namespace")) (.ret (.token c!"Namespace")))) := by decide +kernel

theorem find_Partial : find decls c!"Partial" = some (
  .fn c!"Partial" [] (.bind none (.ws (.identTag c!"partial")) (.ret (.token c!"Partial")))) := by decide +kernel

theorem find_Required : find decls c!"Required" = some (
  .fn c!"Required" [] (.bind none (.ws (.identTag c!"required")) (.ret (.token c!"Required")))) := by decide +kernel

theorem find_Setlike : find decls c!"Setlike" = some (
  .fn c!"Setlike" [] (.bind none (.ws (.identTag c!"setlike")) (.ret (.token c!"Setlike")))) := by decide +kernel

theorem find_Setter : find decls c!"Setter" = some (
  .fn c!"Setter" [] (.bind none (.ws (.identTag c!"setter")) (.ret (.token c!"Setter")))) := by decide +kernel

theorem find_Static : find decls c!"Static" = some (
  .fn c!"Static" [] (.bind none (.ws (.identTag c!"static")) (.ret (.token c!"Static")))) := by decide +kernel

theorem find_Stringifier : find decls c!"Stringifier" = some (
  .fn c!"Stringifier" [] (.bind none (.ws (.identTag c!"stringifier")) (.ret (.token c!"Stringifier")))) := by decide +kernel

theorem find_Typedef : find decls c!"Typedef" = some (
  .fn c!"Typedef" [] (.bind none (.ws (.identTag c!"typedef")) (.ret (.token c!"Typedef")))) := by decide +kernel

theorem find_Unrestricted : find decls c!"Unrestricted" = some (
  .fn c!"Unrestricted" [] (.bind none (.ws (.identTag c!"unrestricted")) (.ret (.token c!"Unrestricted")))) := by decide +kernel

theorem find_Symbol : find decls c!"Symbol" = some (
  .fn c!"Symbol" [] (.bind none (.ws (.identTag c!"symbol")) (.ret (.token c!"Symbol")))) := by decide +kernel

theorem find_NegInfinity : find decls c!"NegInfinity" = some (
  .fn c!"NegInfinity" [] (.bind none (.ws (.identTag c!"-Infinity")) (.ret (.token c!"NegInfinity")))) := by decide +kernel

theorem find_ByteString : find decls c!"ByteString" = some (
  .fn c!"ByteString" [] (.bind none (.ws (.identTag c!"ByteString")) (.ret (.token c!"ByteString")))) := by decide +kernel

theorem find_DOMString : find decls c!"DOMString" = some (
  .fn c!"DOMString" [] (.bind none (.ws (.identTag c!"DOMString")) (.ret (.token c!"DOMString")))) := by decide +kernel

theorem find_FrozenArray : find decls c!"FrozenArray" = some (
  .fn c!"FrozenArray" [] (.bind none (.ws (.identTag c!"FrozenArray")) (.ret (.token c!"FrozenArray")))) := by decide +kernel

theorem find_Infinity : find decls c!"Infinity" = some (
  .fn c!"Infinity" [] (.bind none (.ws (.identTag c!"Infinity")) (.ret (.token c!"Infinity")))) := by decide +kernel

theorem find_NaN : find decls c!"NaN" = some (
  .fn c!"NaN" [] (.bind none (.ws (.identTag c!"NaN")) (.ret (.token c!"NaN")))) := by decide +kernel

theorem find_USVString : find decls c!"USVString" = some (
  .fn c!"USVString" [] (.bind none (.ws (.identTag c!"USVString")) (.ret (.token c!"USVString")))) := by decide +kernel

theorem find_Any : find decls c!"Any" = some (
  .fn c!"Any" [] (.bind none (.ws (.identTag c!"any")) (.ret (.token c!"Any")))) := by decide +kernel

theorem find_Boolean : find decls c!"Boolean" = some (
  .fn c!"Boolean" [] (.bind none (.ws (.identTag c!"boolean")) (.ret (.token c!"Boolean")))) := by decide +kernel

theorem find_Byte : find decls c!"Byte" = some (
  .fn c!"Byte" [] (.bind none (.ws (.identTag c!"byte")) (.ret (.token c!"Byte")))) := by decide +kernel

theorem find_Double : find decls c!"Double" = some (
  .fn c!"Double" [] (.bind none (.ws (.identTag c!"double")) (.ret (.token c!"Double")))) := by decide +kernel

theorem find_False : find decls c!"False" = some (
  .fn c!"False" [] (.bind none (.ws (.identTag c!"false")) (.ret (.token c!"False")))) := by decide +kernel

theorem find_Float : find decls c!"Float" = some (
  .fn c!"Float" [] (.bind none (.ws (.identTag c!"float")) (.ret (.token c!"Float")))) := by decide +kernel

theorem find_Long : find decls c!"Long" = some (
  .fn c!"Long" [] (.bind none (.ws (.identTag c!"long")) (.ret (.token c!"Long")))) := by decide +kernel

theorem find_Null : find decls c!"Null" = some (
  .fn c!"Null" [] (.bind none (.ws (.identTag c!"null")) (.ret (.token c!"Null")))) := by decide +kernel

theorem find_Object : find decls c!"Object" = some (
  .fn c!"Object" [] (.bind none (.ws (.identTag c!"object")) (.ret (.token c!"Object")))) := by decide +kernel

theorem find_Octet : find decls c!"Octet" = some (
  .fn c!"Octet" [] (.bind none (.ws (.identTag c!"octet")) (.ret (.token c!"Octet")))) := by decide +kernel

theorem find_Sequence : find decls c!"Sequence" = some (
  .fn c!"Sequence" [] (.bind none (.ws (.identTag c!"sequence")) (.ret (.token c!"Sequence")))) := by decide +kernel

theorem find_Short : find decls c!"Short" = some (
  .fn c!"Short" [] (.bind none (.ws (.identTag c!"short")) (.ret (.token c!"Short")))) := by decide +kernel

theorem find_True : find decls c!"True" = some (
  .fn c!"True" [] (.bind none (.ws (.identTag c!"true")) (.ret (.token c!"True")))) := by decide +kernel

theorem find_Unsigned : find decls c!"Unsigned" = some (
  .fn c!"Unsigned" [] (.bind none (.ws (.identTag c!"unsigned")) (.ret (.token c!"Unsigned")))) := by decide +kernel

theorem find_Undefined : find decls c!"Undefined" = some (
  .fn c!"Undefined" [] (.bind none (.ws (.identTag c!"undefined")) (.ret (.token c!"Undefined")))) := by decide +kernel

theorem find_Record : find decls c!"Record" = some (
  .fn c!"Record" [] (.bind none (.ws (.identTag c!"record")) (.ret (.token c!"Record")))) := by decide +kernel

theorem find_ArrayBuffer : find decls c!"ArrayBuffer" = some (
  .fn c!"ArrayBuffer" [] (.bind none (.ws (.identTag c!"ArrayBuffer")) (.ret (.token c!"ArrayBuffer")))) := by decide +kernel

theorem find_DataView : find decls c!"DataView" = some (
  .fn c!"DataView" [] (.bind none (.ws (.identTag c!"DataView")) (.ret (.token c!"DataView")))) := by decide +kernel

theorem find_Int8Array : find decls c!"Int8Array" = some (
  .fn c!"Int8Array" [] (.bind none (.ws (.identTag c!"Int8Array")) (.ret (.token c!"Int8Array")))) := by decide +kernel

theorem find_Int16Array : find decls c!"Int16Array" = some (
  .fn c!"Int16Array" [] (.bind none (.ws (.identTag c!"Int16Array")) (.ret (.token c!"Int16Array")))) := by decide +kernel

theorem find_Int32Array : find decls c!"Int32Array" = some (
  .fn c!"Int32Array" [] (.bind none (.ws (.identTag c!"Int32Array")) (.ret (.token c!"Int32Array")))) := by decide +kernel

theorem find_Uint8Array : find decls c!"Uint8Array" = some (
  .fn c!"Uint8Array" [] (.bind none (.ws (.identTag c!"Uint8Array")) (.ret (.token c!"Uint8Array")))) := by decide +kernel

theorem find_Uint16Array : find decls c!"Uint16Array" = some (
  .fn c!"Uint16Array" [] (.bind none (.ws (.identTag c!"Uint16Array")) (.ret (.token c!"Uint16Array")))) := by decide +kernel

theorem find_Uint32Array : find decls c!"Uint32Array" = some (
  .fn c!"Uint32Array" [] (.bind none (.ws (.identTag c!"Uint32Array")) (.ret (.token c!"Uint32Array")))) := by decide +kernel

theorem find_Uint8ClampedArray : find decls c!"Uint8ClampedArray" = some (
  .fn c!"Uint8ClampedArray" [] (.bind none (.ws (.identTag c!"Uint8ClampedArray")) (.ret (.token c!"Uint8ClampedArray")))) := by decide +kernel

theorem find_Float32Array : find decls c!"Float32Array" = some (
  .fn c!"Float32Array" [] (.bind none (.ws (.identTag c!"Float32Array")) (.ret (.token c!"Float32Array")))) := by decide +kernel

theorem find_Float64Array : find decls c!"Float64Array" = some (
  .fn c!"Float64Array" [] (.bind none (.ws (.identTag c!"Float64Array")) (.ret (.token c!"Float64Array")))) := by decide +kernel

theorem find_ArrayBufferView : find decls c!"ArrayBufferView" = some (
  .fn c!"ArrayBufferView" [] (.bind none (.ws (.identTag c!"ArrayBufferView")) (.ret (.token c!"ArrayBufferView")))) := by decide +kernel

theorem find_BufferSource : find decls c!"BufferSource" = some (
  .fn c!"BufferSource" [] (.bind none (.ws (.identTag c!"BufferSource")) (.ret (.token c!"BufferSource")))) := by decide +kernel

theorem find_Promise : find decls c!"Promise" = some (
  .fn c!"Promise" [] (.bind none (.ws (.identTag c!"Promise")) (.ret (.token c!"Promise")))) := by decide +kernel

theorem find_Error : find decls c!"Error" = some (
  .fn c!"Error" [] (.bind none (.ws (.identTag c!"Error")) (.ret (.token c!"Error")))) := by decide +kernel

theorem find_ReadOnly : find decls c!"ReadOnly" = some (
  .fn c!"ReadOnly" [] (.bind none (.ws (.identTag c!"readonly")) (.ret (.token c!"ReadOnly")))) := by decide +kernel

theorem find_Mixin : find decls c!"Mixin" = some (
  .fn c!"Mixin" [] (.bind none (.ws (.identTag c!"mixin")) (.ret (.token c!"Mixin")))) := by decide +kernel

theorem find_Implements : find decls c!"Implements" = some (
  .fn c!"Implements" [] (.bind none (.ws (.identTag c!"implements")) (.ret (.token c!"Implements")))) := by decide +kernel

theorem find_LegacyCaller : find decls c!"LegacyCaller" = some (
  .fn c!"LegacyCaller" [] (.bind none (.ws (.identTag c!"legacycaller")) (.ret (.token c!"LegacyCaller")))) := by decide +kernel

theorem find_Constructor : find decls c!"Constructor" = some (
  .fn c!"Constructor" [] (.bind none (.ws (.identTag c!"constructor")) (.ret (.token c!"Constructor")))) := by decide +kernel

theorem find_UnionType : find decls c!"UnionType" = some (
  .alias c!"UnionType" (.path1 c!"Parenthesized" (.path2 c!"Punctuated" (.path0 c!"UnionMemberType") (.path0 c!"Or")))) := by decide +kernel

theorem find_Type : find decls c!"Type" = some (
  .enum c!"Type" [
    (c!"Single", .path0 c!"SingleType"),
    (c!"Union", .path1 c!"MayBeNull" (.path0 c!"UnionType"))]) := by decide +kernel

theorem find_SingleType : find decls c!"SingleType" = some (
  .enum c!"SingleType" [
    (c!"Any", .path0 c!"Any"),
    (c!"NonAny", .path0 c!"NonAnyType")]) := by decide +kernel

theorem find_NonAnyType : find decls c!"NonAnyType" = some (
  .enum c!"NonAnyType" [
    (c!"Promise", .path0 c!"PromiseType"),
    (c!"Integer", .path1 c!"MayBeNull" (.path0 c!"IntegerType")),
    (c!"FloatingPoint", .path1 c!"MayBeNull" (.path0 c!"FloatingPointType")),
    (c!"Boolean", .path1 c!"MayBeNull" (.path0 c!"Boolean")),
    (c!"Byte", .path1 c!"MayBeNull" (.path0 c!"Byte")),
    (c!"Octet", .path1 c!"MayBeNull" (.path0 c!"Octet")),
    (c!"ByteString", .path1 c!"MayBeNull" (.path0 c!"ByteString")),
    (c!"DOMString", .path1 c!"MayBeNull" (.path0 c!"DOMString")),
    (c!"USVString", .path1 c!"MayBeNull" (.path0 c!"USVString")),
    (c!"Sequence", .path1 c!"MayBeNull" (.path0 c!"SequenceType")),
    (c!"Object", .path1 c!"MayBeNull" (.path0 c!"Object")),
    (c!"Symbol", .path1 c!"MayBeNull" (.path0 c!"Symbol")),
    (c!"Error", .path1 c!"MayBeNull" (.path0 c!"Error")),
    (c!"ArrayBuffer", .path1 c!"MayBeNull" (.path0 c!"ArrayBuffer")),
    (c!"DataView", .path1 c!"MayBeNull" (.path0 c!"DataView")),
    (c!"Int8Array", .path1 c!"MayBeNull" (.path0 c!"Int8Array")),
    (c!"Int16Array", .path1 c!"MayBeNull" (.path0 c!"Int16Array")),
    (c!"Int32Array", .path1 c!"MayBeNull" (.path0 c!"Int32Array")),
    (c!"Uint8Array", .path1 c!"MayBeNull" (.path0 c!"Uint8Array")),
    (c!"Uint16Array", .path1 c!"MayBeNull" (.path0 c!"Uint16Array")),
    (c!"Uint32Array", .path1 c!"MayBeNull" (.path0 c!"Uint32Array")),
    (c!"Uint8ClampedArray", .path1 c!"MayBeNull" (.path0 c!"Uint8ClampedArray")),
    (c!"Float32Array", .path1 c!"MayBeNull" (.path0 c!"Float32Array")),
    (c!"Float64Array", .path1 c!"MayBeNull" (.path0 c!"Float64Array")),
    (c!"ArrayBufferView", .path1 c!"MayBeNull" (.path0 c!"ArrayBufferView")),
    (c!"BufferSource", .path1 c!"MayBeNull" (.path0 c!"BufferSource")),
    (c!"FrozenArrayType", .path1 c!"MayBeNull" (.path0 c!"FrozenArrayType")),
    (c!"RecordType", .path1 c!"MayBeNull" (.path0 c!"RecordType")),
    (c!"Identifier", .path1 c!"MayBeNull" (.path0 c!"Identifier"))]) := by decide +kernel

theorem find_SequenceType : find decls c!"SequenceType" = some (
  .struct c!"SequenceType" [] [
    ⟨c!"sequence", .path0 c!"Sequence", .weedle⟩,
    ⟨c!"generics", .path1 c!"Generics" (.path1 c!"Box" (.path0 c!"Type")), .weedle⟩]) := by decide +kernel

theorem find_FrozenArrayType : find decls c!"FrozenArrayType" = some (
  .struct c!"FrozenArrayType" [] [
    ⟨c!"frozen_array", .path0 c!"FrozenArray", .weedle⟩,
    ⟨c!"generics", .path1 c!"Generics" (.path1 c!"Box" (.path0 c!"Type")), .weedle⟩]) := by decide +kernel

theorem find_MayBeNull : find decls c!"MayBeNull" = some (
  .struct c!"MayBeNull" [c!"T"] [
    ⟨c!"type_", .path0 c!"T", .weedle⟩,
    ⟨c!"q_mark", .path1 c!"Option" (.path0 c!"QMark"), .weedle⟩]) := by decide +kernel

theorem find_PromiseType : find decls c!"PromiseType" = some (
  .struct c!"PromiseType" [] [
    ⟨c!"promise", .path0 c!"Promise", .weedle⟩,
    ⟨c!"generics", .path1 c!"Generics" (.path1 c!"Box" (.path0 c!"ReturnType")), .weedle⟩]) := by decide +kernel

theorem find_IntegerType : find decls c!"IntegerType" = some (
  .enum c!"IntegerType" [
    (c!"LongLong", .path0 c!"LongLongType"),
    (c!"Long", .path0 c!"LongType"),
    (c!"Short", .path0 c!"ShortType")]) := by decide +kernel

theorem find_LongLongType : find decls c!"LongLongType" = some (
  .struct c!"LongLongType" [] [
    ⟨c!"unsigned", .path1 c!"Option" (.path0 c!"Unsigned"), .weedle⟩,
    ⟨c!"long_long", .path2 c!"(,)" (.path0 c!"Long") (.path0 c!"Long"), .weedle⟩]) := by decide +kernel

theorem find_LongType : find decls c!"LongType" = some (
  .struct c!"LongType" [] [
    ⟨c!"unsigned", .path1 c!"Option" (.path0 c!"Unsigned"), .weedle⟩,
    ⟨c!"long", .path0 c!"Long", .weedle⟩]) := by decide +kernel

theorem find_ShortType : find decls c!"ShortType" = some (
  .struct c!"ShortType" [] [
    ⟨c!"unsigned", .path1 c!"Option" (.path0 c!"Unsigned"), .weedle⟩,
    ⟨c!"short", .path0 c!"Short", .weedle⟩]) := by decide +kernel

theorem find_FloatingPointType : find decls c!"FloatingPointType" = some (
  .enum c!"FloatingPointType" [
    (c!"Float", .path0 c!"FloatType"),
    (c!"Double", .path0 c!"DoubleType")]) := by decide +kernel

theorem find_FloatType : find decls c!"FloatType" = some (
  .struct c!"FloatType" [] [
    ⟨c!"unrestricted", .path1 c!"Option" (.path0 c!"Unrestricted"), .weedle⟩,
    ⟨c!"float", .path0 c!"Float", .weedle⟩]) := by decide +kernel

theorem find_DoubleType : find decls c!"DoubleType" = some (
  .struct c!"DoubleType" [] [
    ⟨c!"unrestricted", .path1 c!"Option" (.path0 c!"Unrestricted"), .weedle⟩,
    ⟨c!"double", .path0 c!"Double", .weedle⟩]) := by decide +kernel

theorem find_RecordType : find decls c!"RecordType" = some (
  .struct c!"RecordType" [] [
    ⟨c!"record", .path0 c!"Record", .weedle⟩,
    ⟨c!"generics", .path1 c!"Generics" (.path3 c!"(,,)" (.path1 c!"Box" (.path0 c!"RecordKeyType")) (.path0 c!"Comma") (.path1 c!"Box" (.path0 c!"Type"))), .weedle⟩]) := by decide +kernel

theorem find_RecordKeyType : find decls c!"RecordKeyType" = some (
  .enum c!"RecordKeyType" [
    (c!"Byte", .path0 c!"ByteString"),
    (c!"DOM", .path0 c!"DOMString"),
    (c!"USV", .path0 c!"USVString"),
    (c!"NonAny", .path0 c!"NonAnyType")]) := by decide +kernel

theorem find_UnionMemberType : find decls c!"UnionMemberType" = some (
  .enum c!"UnionMemberType" [
    (c!"Single", .path0 c!"AttributedNonAnyType"),
    (c!"Union", .path1 c!"MayBeNull" (.path0 c!"UnionType"))]) := by decide +kernel

theorem find_ConstType : find decls c!"ConstType" = some (
  .enum c!"ConstType" [
    (c!"Integer", .path1 c!"MayBeNull" (.path0 c!"IntegerType")),
    (c!"FloatingPoint", .path1 c!"MayBeNull" (.path0 c!"FloatingPointType")),
    (c!"Boolean", .path1 c!"MayBeNull" (.path0 c!"Boolean")),
    (c!"Byte", .path1 c!"MayBeNull" (.path0 c!"Byte")),
    (c!"Octet", .path1 c!"MayBeNull" (.path0 c!"Octet")),
    (c!"Identifier", .path1 c!"MayBeNull" (.path0 c!"Identifier"))]) := by decide +kernel

theorem find_ReturnType : find decls c!"ReturnType" = some (
  .enum c!"ReturnType" [
    (c!"Undefined", .path0 c!"Undefined"),
    (c!"Type", .path0 c!"Type")]) := by decide +kernel

theorem find_AttributedType : find decls c!"AttributedType" = some (
  .struct c!"AttributedType" [] [
    ⟨c!"attributes", .path1 c!"Option" (.path0 c!"ExtendedAttributeList"), .weedle⟩,
    ⟨c!"type_", .path0 c!"Type", .weedle⟩]) := by decide +kernel

theorem find_AttributedNonAnyType : find decls c!"AttributedNonAnyType" = some (
  .struct c!"AttributedNonAnyType" [] [
    ⟨c!"attributes", .path1 c!"Option" (.path0 c!"ExtendedAttributeList"), .weedle⟩,
    ⟨c!"type_", .path0 c!"NonAnyType", .weedle⟩]) := by decide +kernel

theorem find_sp : find decls c!"sp" = some (
  .fn c!"sp" [] (.recognize (.many0 (.alt (.bind none (.tag c!"//") (.bind none (.takeUntil c!"\n") (.bind none (.char '\n') (.ret (.unit))))) (.alt (.map (.takeWhile1 (.or (.eq '\t') (.or (.eq '\n') (.or (.eq '\x0d') (.eq ' '))))) c!"_" (.unit)) (.alt (.bind none (.tag c!"/*") (.bind none (.takeUntil c!"*/") (.bind none (.tag c!"*/") (.ret (.unit))))) (.altEnd))))))) := by decide +kernel

end Verif.Source
