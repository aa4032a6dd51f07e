import Verif.Source.Syntax

/-!
# The declarations in `/repo/src/*.rs`

As read from the text by `Verif/Source/Read.lean`, which is checked in `Verif/Source/Check.lean`.
-/

namespace Verif.Source

/-- The declarations of `/repo/src/argument.rs`. -/
def argumentDecls0 : List Decl := [
  .alias c!"ArgumentList" (.path2 c!"Punctuated" (.path0 c!"Argument") (.path0 c!"Comma")),
  .enum c!"Argument" [
    (c!"Single", .path0 c!"SingleArgument"),
    (c!"Variadic", .path0 c!"VariadicArgument")],
  .struct c!"SingleArgument" [] [
    ⟨c!"attributes", .path1 c!"Option" (.path0 c!"ExtendedAttributeList"), .weedle⟩,
    ⟨c!"optional", .path1 c!"Option" (.path0 c!"Optional"), .weedle⟩,
    ⟨c!"type_", .path0 c!"AttributedType", .weedle⟩,
    ⟨c!"identifier", .path0 c!"Identifier", .weedle⟩,
    ⟨c!"default", .path1 c!"Option" (.path0 c!"Default"), .mac (.map (.condSome c!"optional" (.weedle (.path1 c!"Option" (.path0 c!"Default")))) c!"default" (.unwrapOrNone c!"default"))⟩],
  .struct c!"VariadicArgument" [] [
    ⟨c!"attributes", .path1 c!"Option" (.path0 c!"ExtendedAttributeList"), .weedle⟩,
    ⟨c!"type_", .path0 c!"Type", .weedle⟩,
    ⟨c!"ellipsis", .path0 c!"Ellipsis", .weedle⟩,
    ⟨c!"identifier", .path0 c!"Identifier", .weedle⟩]]

/-- The declarations in `/repo/src/argument.rs` -/
def argumentDecls : List Decl := argumentDecls0

/-- The declarations of `/repo/src/attribute.rs`. -/
def attributeDecls0 : List Decl := [
  .alias c!"ExtendedAttributeList" (.path1 c!"Bracketed" (.path2 c!"Punctuated" (.path0 c!"ExtendedAttribute") (.path0 c!"Comma"))),
  .alias c!"IdentifierList" (.path2 c!"Punctuated" (.path0 c!"Identifier") (.path0 c!"Comma")),
  .enum c!"ExtendedAttribute" [
    (c!"ArgList", .path0 c!"ExtendedAttributeArgList"),
    (c!"NamedArgList", .path0 c!"ExtendedAttributeNamedArgList"),
    (c!"IdentList", .path0 c!"ExtendedAttributeIdentList"),
    (c!"Ident", .path0 c!"ExtendedAttributeIdent"),
    (c!"Wildcard", .path0 c!"ExtendedAttributeWildCard"),
    (c!"NoArgs", .path0 c!"ExtendedAttributeNoArgs")],
  .struct c!"ExtendedAttributeArgList" [] [
    ⟨c!"identifier", .path0 c!"Identifier", .weedle⟩,
    ⟨c!"args", .path1 c!"Parenthesized" (.path0 c!"ArgumentList"), .weedle⟩],
  .struct c!"ExtendedAttributeNamedArgList" [] [
    ⟨c!"lhs_identifier", .path0 c!"Identifier", .weedle⟩,
    ⟨c!"assign", .path0 c!"Assign", .weedle⟩,
    ⟨c!"rhs_identifier", .path0 c!"Identifier", .weedle⟩,
    ⟨c!"args", .path1 c!"Parenthesized" (.path0 c!"ArgumentList"), .weedle⟩],
  .struct c!"ExtendedAttributeIdentList" [] [
    ⟨c!"identifier", .path0 c!"Identifier", .weedle⟩,
    ⟨c!"assign", .path0 c!"Assign", .weedle⟩,
    ⟨c!"list", .path1 c!"Parenthesized" (.path0 c!"IdentifierList"), .weedle⟩],
  .struct c!"ExtendedAttributeIdent" [] [
    ⟨c!"lhs_identifier", .path0 c!"Identifier", .weedle⟩,
    ⟨c!"assign", .path0 c!"Assign", .weedle⟩,
    ⟨c!"rhs", .path0 c!"IdentifierOrString", .weedle⟩],
  .struct c!"ExtendedAttributeWildCard" [] [
    ⟨c!"lhs_identifier", .path0 c!"Identifier", .weedle⟩,
    ⟨c!"assign", .path0 c!"Assign", .weedle⟩,
    ⟨c!"rhs", .path0 c!"Asterisk", .weedle⟩],
  .newtype c!"ExtendedAttributeNoArgs" (.weedle (.path0 c!"Identifier")),
  .enum c!"IdentifierOrString" [
    (c!"Identifier", .path0 c!"Identifier"),
    (c!"String", .path0 c!"StringLit")]]

/-- The declarations in `/repo/src/attribute.rs` -/
def attributeDecls : List Decl := attributeDecls0

/-- The declarations of `/repo/src/common.rs`. -/
def commonDecls0 : List Decl := [
  .fn c!"Option" [c!"T"] (.opt (.weedle (.path0 c!"T"))),
  .fn c!"Box" [c!"T"] (.bind (some c!"inner") (.weedle (.path0 c!"T")) (.ret (.box c!"inner"))),
  .fn c!"Vec" [c!"T"] (.many0 (.weedle (.path0 c!"T"))),
  .fn c!"(,)" [c!"T", c!"U"] (.bind (some c!"t") (.weedle (.path0 c!"T")) (.bind (some c!"u") (.weedle (.path0 c!"U")) (.ret (.pair c!"t" c!"u")))),
  .fn c!"(,,)" [c!"T", c!"U", c!"V"] (.bind (some c!"t") (.weedle (.path0 c!"T")) (.bind (some c!"u") (.weedle (.path0 c!"U")) (.bind (some c!"v") (.weedle (.path0 c!"V")) (.ret (.triple c!"t" c!"u" c!"v"))))),
  .struct c!"Parenthesized" [c!"T"] [
    ⟨c!"open_paren", .path0 c!"OpenParen", .weedle⟩,
    ⟨c!"body", .path0 c!"T", .weedle⟩,
    ⟨c!"close_paren", .path0 c!"CloseParen", .weedle⟩],
  .struct c!"Bracketed" [c!"T"] [
    ⟨c!"open_bracket", .path0 c!"OpenBracket", .weedle⟩,
    ⟨c!"body", .path0 c!"T", .weedle⟩,
    ⟨c!"close_bracket", .path0 c!"CloseBracket", .weedle⟩],
  .struct c!"Braced" [c!"T"] [
    ⟨c!"open_brace", .path0 c!"OpenBrace", .weedle⟩,
    ⟨c!"body", .path0 c!"T", .weedle⟩,
    ⟨c!"close_brace", .path0 c!"CloseBrace", .weedle⟩],
  .struct c!"Generics" [c!"T"] [
    ⟨c!"open_angle", .path0 c!"LessThan", .weedle⟩,
    ⟨c!"body", .path0 c!"T", .weedle⟩,
    ⟨c!"close_angle", .path0 c!"GreaterThan", .weedle⟩],
  .struct c!"Punctuated" [c!"T", c!"S"] [
    ⟨c!"list", .path1 c!"Vec" (.path0 c!"T"), .mac (.separatedList (.weedle (.path0 c!"S")) (.weedle (.path0 c!"T")))⟩,
    ⟨c!"separator", .path0 c!"S", .marker⟩],
  .struct c!"PunctuatedNonEmpty" [c!"T", c!"S"] [
    ⟨c!"list", .path1 c!"Vec" (.path0 c!"T"), .mac (.terminated (.separatedNonemptyList (.weedle (.path0 c!"S")) (.weedle (.path0 c!"T"))) (.opt (.weedle (.path0 c!"S"))))⟩,
    ⟨c!"separator", .path0 c!"S", .marker⟩],
  .newtype c!"Identifier" (.ws (.bind none (.opt (.char '_')) (.bind (some c!"id") (.recognize (.bind none (.takeWhile1 (.alphabetic)) (.bind none (.takeWhile (.or (.alphanumeric) (.or (.eq '_') (.eq '-')))) (.ret (.unit))))) (.ret (.var c!"id"))))),
  .struct c!"Default" [] [
    ⟨c!"assign", .path0 c!"Assign", .weedle⟩,
    ⟨c!"value", .path0 c!"DefaultValue", .weedle⟩]]

/-- The declarations in `/repo/src/common.rs` -/
def commonDecls : List Decl := commonDecls0

/-- The declarations of `/repo/src/dictionary.rs`. -/
def dictionaryDecls0 : List Decl := [
  .alias c!"DictionaryMembers" (.path1 c!"Vec" (.path0 c!"DictionaryMember")),
  .struct c!"DictionaryMember" [] [
    ⟨c!"attributes", .path1 c!"Option" (.path0 c!"ExtendedAttributeList"), .weedle⟩,
    ⟨c!"required", .path1 c!"Option" (.path0 c!"Required"), .weedle⟩,
    ⟨c!"type_", .path0 c!"Type", .weedle⟩,
    ⟨c!"identifier", .path0 c!"Identifier", .weedle⟩,
    ⟨c!"default", .path1 c!"Option" (.path0 c!"Default"), .weedle⟩,
    ⟨c!"semi_colon", .path0 c!"SemiColon", .weedle⟩]]

/-- The declarations in `/repo/src/dictionary.rs` -/
def dictionaryDecls : List Decl := dictionaryDecls0

/-- The declarations of `/repo/src/interface.rs`. -/
def interfaceDecls0 : List Decl := [
  .alias c!"InterfaceMembers" (.path1 c!"Vec" (.path0 c!"InterfaceMember")),
  .struct c!"Inheritance" [] [
    ⟨c!"colon", .path0 c!"Colon", .weedle⟩,
    ⟨c!"identifier", .path0 c!"Identifier", .weedle⟩],
  .enum c!"InterfaceMember" [
    (c!"Const", .path0 c!"ConstMember"),
    (c!"Attribute", .path0 c!"AttributeInterfaceMember"),
    (c!"Constructor", .path0 c!"ConstructorInterfaceMember"),
    (c!"Operation", .path0 c!"OperationInterfaceMember"),
    (c!"Iterable", .path0 c!"IterableInterfaceMember"),
    (c!"AsyncIterable", .path0 c!"AsyncIterableInterfaceMember"),
    (c!"Maplike", .path0 c!"MaplikeInterfaceMember"),
    (c!"Setlike", .path0 c!"SetlikeInterfaceMember"),
    (c!"Stringifier", .path0 c!"StringifierMember")],
  .struct c!"ConstMember" [] [
    ⟨c!"attributes", .path1 c!"Option" (.path0 c!"ExtendedAttributeList"), .weedle⟩,
    ⟨c!"const_", .path0 c!"Const", .weedle⟩,
    ⟨c!"const_type", .path0 c!"ConstType", .weedle⟩,
    ⟨c!"identifier", .path0 c!"Identifier", .weedle⟩,
    ⟨c!"assign", .path0 c!"Assign", .weedle⟩,
    ⟨c!"const_value", .path0 c!"ConstValue", .weedle⟩,
    ⟨c!"semi_colon", .path0 c!"SemiColon", .weedle⟩],
  .struct c!"AttributeInterfaceMember" [] [
    ⟨c!"attributes", .path1 c!"Option" (.path0 c!"ExtendedAttributeList"), .weedle⟩,
    ⟨c!"modifier", .path1 c!"Option" (.path0 c!"StringifierOrInheritOrStatic"), .weedle⟩,
    ⟨c!"readonly", .path1 c!"Option" (.path0 c!"ReadOnly"), .weedle⟩,
    ⟨c!"attribute", .path0 c!"Attribute", .weedle⟩,
    ⟨c!"type_", .path0 c!"AttributedType", .weedle⟩,
    ⟨c!"identifier", .path0 c!"Identifier", .weedle⟩,
    ⟨c!"semi_colon", .path0 c!"SemiColon", .weedle⟩],
  .struct c!"ConstructorInterfaceMember" [] [
    ⟨c!"attributes", .path1 c!"Option" (.path0 c!"ExtendedAttributeList"), .weedle⟩,
    ⟨c!"constructor", .path0 c!"Constructor", .weedle⟩,
    ⟨c!"args", .path1 c!"Parenthesized" (.path0 c!"ArgumentList"), .weedle⟩,
    ⟨c!"semi_colon", .path0 c!"SemiColon", .weedle⟩],
  .struct c!"OperationInterfaceMember" [] [
    ⟨c!"attributes", .path1 c!"Option" (.path0 c!"ExtendedAttributeList"), .weedle⟩,
    ⟨c!"modifier", .path1 c!"Option" (.path0 c!"StringifierOrStatic"), .weedle⟩,
    ⟨c!"special", .path1 c!"Option" (.path0 c!"Special"), .weedle⟩,
    ⟨c!"return_type", .path0 c!"ReturnType", .weedle⟩,
    ⟨c!"identifier", .path1 c!"Option" (.path0 c!"Identifier"), .weedle⟩,
    ⟨c!"args", .path1 c!"Parenthesized" (.path0 c!"ArgumentList"), .weedle⟩,
    ⟨c!"semi_colon", .path0 c!"SemiColon", .weedle⟩],
  .enum c!"IterableInterfaceMember" [
    (c!"Single", .path0 c!"SingleTypedIterable"),
    (c!"Double", .path0 c!"DoubleTypedIterable")],
  .struct c!"SingleTypedIterable" [] [
    ⟨c!"attributes", .path1 c!"Option" (.path0 c!"ExtendedAttributeList"), .weedle⟩,
    ⟨c!"iterable", .path0 c!"Iterable", .weedle⟩,
    ⟨c!"generics", .path1 c!"Generics" (.path0 c!"AttributedType"), .weedle⟩,
    ⟨c!"semi_colon", .path0 c!"SemiColon", .weedle⟩],
  .struct c!"DoubleTypedIterable" [] [
    ⟨c!"attributes", .path1 c!"Option" (.path0 c!"ExtendedAttributeList"), .weedle⟩,
    ⟨c!"iterable", .path0 c!"Iterable", .weedle⟩,
    ⟨c!"generics", .path1 c!"Generics" (.path3 c!"(,,)" (.path0 c!"AttributedType") (.path0 c!"Comma") (.path0 c!"AttributedType")), .weedle⟩,
    ⟨c!"semi_colon", .path0 c!"SemiColon", .weedle⟩],
  .enum c!"AsyncIterableInterfaceMember" [
    (c!"Single", .path0 c!"SingleTypedAsyncIterable"),
    (c!"Double", .path0 c!"DoubleTypedAsyncIterable")],
  .struct c!"SingleTypedAsyncIterable" [] [
    ⟨c!"attributes", .path1 c!"Option" (.path0 c!"ExtendedAttributeList"), .weedle⟩,
    ⟨c!"async_iterable", .path2 c!"(,)" (.path0 c!"Async") (.path0 c!"Iterable"), .weedle⟩,
    ⟨c!"generics", .path1 c!"Generics" (.path0 c!"AttributedType"), .weedle⟩,
    ⟨c!"args", .path1 c!"Option" (.path1 c!"Parenthesized" (.path0 c!"ArgumentList")), .weedle⟩,
    ⟨c!"semi_colon", .path0 c!"SemiColon", .weedle⟩],
  .struct c!"DoubleTypedAsyncIterable" [] [
    ⟨c!"attributes", .path1 c!"Option" (.path0 c!"ExtendedAttributeList"), .weedle⟩,
    ⟨c!"async_iterable", .path2 c!"(,)" (.path0 c!"Async") (.path0 c!"Iterable"), .weedle⟩,
    ⟨c!"generics", .path1 c!"Generics" (.path3 c!"(,,)" (.path0 c!"AttributedType") (.path0 c!"Comma") (.path0 c!"AttributedType")), .weedle⟩,
    ⟨c!"args", .path1 c!"Option" (.path1 c!"Parenthesized" (.path0 c!"ArgumentList")), .weedle⟩,
    ⟨c!"semi_colon", .path0 c!"SemiColon", .weedle⟩],
  .struct c!"MaplikeInterfaceMember" [] [
    ⟨c!"attributes", .path1 c!"Option" (.path0 c!"ExtendedAttributeList"), .weedle⟩,
    ⟨c!"readonly", .path1 c!"Option" (.path0 c!"ReadOnly"), .weedle⟩,
    ⟨c!"maplike", .path0 c!"Maplike", .weedle⟩,
    ⟨c!"generics", .path1 c!"Generics" (.path3 c!"(,,)" (.path0 c!"AttributedType") (.path0 c!"Comma") (.path0 c!"AttributedType")), .weedle⟩,
    ⟨c!"semi_colon", .path0 c!"SemiColon", .weedle⟩],
  .struct c!"SetlikeInterfaceMember" [] [
    ⟨c!"attributes", .path1 c!"Option" (.path0 c!"ExtendedAttributeList"), .weedle⟩,
    ⟨c!"readonly", .path1 c!"Option" (.path0 c!"ReadOnly"), .weedle⟩,
    ⟨c!"setlike", .path0 c!"Setlike", .weedle⟩,
    ⟨c!"generics", .path1 c!"Generics" (.path0 c!"AttributedType"), .weedle⟩,
    ⟨c!"semi_colon", .path0 c!"SemiColon", .weedle⟩],
  .struct c!"StringifierMember" [] [
    ⟨c!"attributes", .path1 c!"Option" (.path0 c!"ExtendedAttributeList"), .weedle⟩,
    ⟨c!"stringifier", .path0 c!"Stringifier", .weedle⟩,
    ⟨c!"semi_colon", .path0 c!"SemiColon", .weedle⟩],
  .enum c!"Special" [
    (c!"Getter", .path0 c!"Getter"),
    (c!"Setter", .path0 c!"Setter"),
    (c!"Deleter", .path0 c!"Deleter"),
    (c!"LegacyCaller", .path0 c!"LegacyCaller")],
  .enum c!"StringifierOrInheritOrStatic" [
    (c!"Stringifier", .path0 c!"Stringifier"),
    (c!"Inherit", .path0 c!"Inherit"),
    (c!"Static", .path0 c!"Static")],
  .enum c!"StringifierOrStatic" [
    (c!"Stringifier", .path0 c!"Stringifier"),
    (c!"Static", .path0 c!"Static")]]

/-- The declarations in `/repo/src/interface.rs` -/
def interfaceDecls : List Decl := interfaceDecls0

/-- The declarations of `/repo/src/lib.rs`. -/
def libDecls0 : List Decl := [
  .alias c!"Definitions" (.path1 c!"Vec" (.path0 c!"Definition")),
  .enum c!"Definition" [
    (c!"Callback", .path0 c!"CallbackDefinition"),
    (c!"CallbackInterface", .path0 c!"CallbackInterfaceDefinition"),
    (c!"Interface", .path0 c!"InterfaceDefinition"),
    (c!"InterfaceMixin", .path0 c!"InterfaceMixinDefinition"),
    (c!"Namespace", .path0 c!"NamespaceDefinition"),
    (c!"Dictionary", .path0 c!"DictionaryDefinition"),
    (c!"PartialInterface", .path0 c!"PartialInterfaceDefinition"),
    (c!"PartialInterfaceMixin", .path0 c!"PartialInterfaceMixinDefinition"),
    (c!"PartialDictionary", .path0 c!"PartialDictionaryDefinition"),
    (c!"PartialNamespace", .path0 c!"PartialNamespaceDefinition"),
    (c!"Enum", .path0 c!"EnumDefinition"),
    (c!"Typedef", .path0 c!"TypedefDefinition"),
    (c!"IncludesStatement", .path0 c!"IncludesStatementDefinition"),
    (c!"Implements", .path0 c!"ImplementsDefinition")],
  .struct c!"CallbackDefinition" [] [
    ⟨c!"attributes", .path1 c!"Option" (.path0 c!"ExtendedAttributeList"), .weedle⟩,
    ⟨c!"callback", .path0 c!"Callback", .weedle⟩,
    ⟨c!"identifier", .path0 c!"Identifier", .weedle⟩,
    ⟨c!"assign", .path0 c!"Assign", .weedle⟩,
    ⟨c!"return_type", .path0 c!"ReturnType", .weedle⟩,
    ⟨c!"arguments", .path1 c!"Parenthesized" (.path0 c!"ArgumentList"), .weedle⟩,
    ⟨c!"semi_colon", .path0 c!"SemiColon", .weedle⟩],
  .struct c!"CallbackInterfaceDefinition" [] [
    ⟨c!"attributes", .path1 c!"Option" (.path0 c!"ExtendedAttributeList"), .weedle⟩,
    ⟨c!"callback", .path0 c!"Callback", .weedle⟩,
    ⟨c!"interface", .path0 c!"Interface", .weedle⟩,
    ⟨c!"identifier", .path0 c!"Identifier", .weedle⟩,
    ⟨c!"inheritance", .path1 c!"Option" (.path0 c!"Inheritance"), .weedle⟩,
    ⟨c!"members", .path1 c!"Braced" (.path0 c!"InterfaceMembers"), .weedle⟩,
    ⟨c!"semi_colon", .path0 c!"SemiColon", .weedle⟩],
  .struct c!"InterfaceDefinition" [] [
    ⟨c!"attributes", .path1 c!"Option" (.path0 c!"ExtendedAttributeList"), .weedle⟩,
    ⟨c!"interface", .path0 c!"Interface", .weedle⟩,
    ⟨c!"identifier", .path0 c!"Identifier", .weedle⟩,
    ⟨c!"inheritance", .path1 c!"Option" (.path0 c!"Inheritance"), .weedle⟩,
    ⟨c!"members", .path1 c!"Braced" (.path0 c!"InterfaceMembers"), .weedle⟩,
    ⟨c!"semi_colon", .path0 c!"SemiColon", .weedle⟩],
  .struct c!"InterfaceMixinDefinition" [] [
    ⟨c!"attributes", .path1 c!"Option" (.path0 c!"ExtendedAttributeList"), .weedle⟩,
    ⟨c!"interface", .path0 c!"Interface", .weedle⟩,
    ⟨c!"mixin", .path0 c!"Mixin", .weedle⟩,
    ⟨c!"identifier", .path0 c!"Identifier", .weedle⟩,
    ⟨c!"members", .path1 c!"Braced" (.path0 c!"MixinMembers"), .weedle⟩,
    ⟨c!"semi_colon", .path0 c!"SemiColon", .weedle⟩],
  .struct c!"NamespaceDefinition" [] [
    ⟨c!"attributes", .path1 c!"Option" (.path0 c!"ExtendedAttributeList"), .weedle⟩,
    ⟨c!"namespace", .path0 c!"Namespace", .weedle⟩,
    ⟨c!"identifier", .path0 c!"Identifier", .weedle⟩,
    ⟨c!"members", .path1 c!"Braced" (.path0 c!"NamespaceMembers"), .weedle⟩,
    ⟨c!"semi_colon", .path0 c!"SemiColon", .weedle⟩],
  .struct c!"DictionaryDefinition" [] [
    ⟨c!"attributes", .path1 c!"Option" (.path0 c!"ExtendedAttributeList"), .weedle⟩,
    ⟨c!"dictionary", .path0 c!"Dictionary", .weedle⟩,
    ⟨c!"identifier", .path0 c!"Identifier", .weedle⟩,
    ⟨c!"inheritance", .path1 c!"Option" (.path0 c!"Inheritance"), .weedle⟩,
    ⟨c!"members", .path1 c!"Braced" (.path0 c!"DictionaryMembers"), .weedle⟩,
    ⟨c!"semi_colon", .path0 c!"SemiColon", .weedle⟩],
  .struct c!"PartialInterfaceDefinition" [] [
    ⟨c!"attributes", .path1 c!"Option" (.path0 c!"ExtendedAttributeList"), .weedle⟩,
    ⟨c!"partial", .path0 c!"Partial", .weedle⟩,
    ⟨c!"interface", .path0 c!"Interface", .weedle⟩,
    ⟨c!"identifier", .path0 c!"Identifier", .weedle⟩,
    ⟨c!"members", .path1 c!"Braced" (.path0 c!"InterfaceMembers"), .weedle⟩,
    ⟨c!"semi_colon", .path0 c!"SemiColon", .weedle⟩],
  .struct c!"PartialInterfaceMixinDefinition" [] [
    ⟨c!"attributes", .path1 c!"Option" (.path0 c!"ExtendedAttributeList"), .weedle⟩,
    ⟨c!"partial", .path0 c!"Partial", .weedle⟩,
    ⟨c!"interface", .path0 c!"Interface", .weedle⟩,
    ⟨c!"mixin", .path0 c!"Mixin", .weedle⟩,
    ⟨c!"identifier", .path0 c!"Identifier", .weedle⟩,
    ⟨c!"members", .path1 c!"Braced" (.path0 c!"MixinMembers"), .weedle⟩,
    ⟨c!"semi_colon", .path0 c!"SemiColon", .weedle⟩],
  .struct c!"PartialDictionaryDefinition" [] [
    ⟨c!"attributes", .path1 c!"Option" (.path0 c!"ExtendedAttributeList"), .weedle⟩,
    ⟨c!"partial", .path0 c!"Partial", .weedle⟩,
    ⟨c!"dictionary", .path0 c!"Dictionary", .weedle⟩,
    ⟨c!"identifier", .path0 c!"Identifier", .weedle⟩,
    ⟨c!"members", .path1 c!"Braced" (.path0 c!"DictionaryMembers"), .weedle⟩,
    ⟨c!"semi_colon", .path0 c!"SemiColon", .weedle⟩],
  .struct c!"PartialNamespaceDefinition" [] [
    ⟨c!"attributes", .path1 c!"Option" (.path0 c!"ExtendedAttributeList"), .weedle⟩,
    ⟨c!"partial", .path0 c!"Partial", .weedle⟩,
    ⟨c!"namespace", .path0 c!"Namespace", .weedle⟩,
    ⟨c!"identifier", .path0 c!"Identifier", .weedle⟩,
    ⟨c!"members", .path1 c!"Braced" (.path0 c!"NamespaceMembers"), .weedle⟩,
    ⟨c!"semi_colon", .path0 c!"SemiColon", .weedle⟩],
  .struct c!"EnumDefinition" [] [
    ⟨c!"attributes", .path1 c!"Option" (.path0 c!"ExtendedAttributeList"), .weedle⟩,
    ⟨c!"enum_", .path0 c!"Enum", .weedle⟩,
    ⟨c!"identifier", .path0 c!"Identifier", .weedle⟩,
    ⟨c!"values", .path1 c!"Braced" (.path0 c!"EnumValueList"), .weedle⟩,
    ⟨c!"semi_colon", .path0 c!"SemiColon", .weedle⟩],
  .struct c!"TypedefDefinition" [] [
    ⟨c!"attributes", .path1 c!"Option" (.path0 c!"ExtendedAttributeList"), .weedle⟩,
    ⟨c!"typedef", .path0 c!"Typedef", .weedle⟩,
    ⟨c!"type_", .path0 c!"AttributedType", .weedle⟩,
    ⟨c!"identifier", .path0 c!"Identifier", .weedle⟩,
    ⟨c!"semi_colon", .path0 c!"SemiColon", .weedle⟩],
  .struct c!"IncludesStatementDefinition" [] [
    ⟨c!"attributes", .path1 c!"Option" (.path0 c!"ExtendedAttributeList"), .weedle⟩,
    ⟨c!"lhs_identifier", .path0 c!"Identifier", .weedle⟩,
    ⟨c!"includes", .path0 c!"Includes", .weedle⟩,
    ⟨c!"rhs_identifier", .path0 c!"Identifier", .weedle⟩,
    ⟨c!"semi_colon", .path0 c!"SemiColon", .weedle⟩],
  .struct c!"ImplementsDefinition" [] [
    ⟨c!"attributes", .path1 c!"Option" (.path0 c!"ExtendedAttributeList"), .weedle⟩,
    ⟨c!"lhs_identifier", .path0 c!"Identifier", .weedle⟩,
    ⟨c!"includes", .path0 c!"Implements", .weedle⟩,
    ⟨c!"rhs_identifier", .path0 c!"Identifier", .weedle⟩,
    ⟨c!"semi_colon", .path0 c!"SemiColon", .weedle⟩],
  .alias c!"EnumValueList" (.path2 c!"PunctuatedNonEmpty" (.path0 c!"StringLit") (.path0 c!"Comma"))]

/-- The declarations in `/repo/src/lib.rs` -/
def libDecls : List Decl := libDecls0

/-- The declarations of `/repo/src/literal.rs`. -/
def literalDecls0 : List Decl := [
  .enum c!"IntegerLit" [
    (c!"Dec", .path0 c!"DecLit"),
    (c!"Hex", .path0 c!"HexLit"),
    (c!"Oct", .path0 c!"OctLit")],
  .newtype c!"DecLit" (.ws (.recognize (.bind none (.opt (.char '-')) (.bind none (.oneOf c!"123456789") (.bind none (.takeWhile (.digit)) (.ret (.unit))))))),
  .newtype c!"HexLit" (.ws (.recognize (.bind none (.opt (.char '-')) (.bind none (.char '0') (.bind none (.alt (.char 'x') (.alt (.char 'X') (.altEnd))) (.bind none (.takeWhile (.hexdigit)) (.ret (.unit)))))))),
  .newtype c!"OctLit" (.ws (.recognize (.bind none (.opt (.char '-')) (.bind none (.char '0') (.bind none (.takeWhile (.and (.ge '0') (.le '7'))) (.ret (.unit))))))),
  .newtype c!"StringLit" (.ws (.bind none (.char '\"') (.bind (some c!"s") (.takeWhile (.ne '\"')) (.bind none (.char '\"') (.ret (.var c!"s")))))),
  .enum c!"DefaultValue" [
    (c!"Boolean", .path0 c!"BooleanLit"),
    (c!"EmptyArray", .path0 c!"EmptyArrayLit"),
    (c!"EmptyDictionary", .path0 c!"EmptyDictionaryLit"),
    (c!"Float", .path0 c!"FloatLit"),
    (c!"Integer", .path0 c!"IntegerLit"),
    (c!"Null", .path0 c!"Null"),
    (c!"String", .path0 c!"StringLit")],
  .struct c!"EmptyArrayLit" [] [
    ⟨c!"open_bracket", .path0 c!"OpenBracket", .weedle⟩,
    ⟨c!"close_bracket", .path0 c!"CloseBracket", .weedle⟩],
  .struct c!"EmptyDictionaryLit" [] [
    ⟨c!"open_brace", .path0 c!"OpenBrace", .weedle⟩,
    ⟨c!"close_brace", .path0 c!"CloseBrace", .weedle⟩],
  .enum c!"ConstValue" [
    (c!"Boolean", .path0 c!"BooleanLit"),
    (c!"Float", .path0 c!"FloatLit"),
    (c!"Integer", .path0 c!"IntegerLit"),
    (c!"Null", .path0 c!"Null")],
  .newtype c!"BooleanLit" (.alt (.map (.weedle (.path0 c!"True")) c!"_" (.bool true)) (.alt (.map (.weedle (.path0 c!"False")) c!"_" (.bool false)) (.altEnd))),
  .enum c!"FloatLit" [
    (c!"Value", .path0 c!"FloatValueLit"),
    (c!"NegInfinity", .path0 c!"NegInfinity"),
    (c!"Infinity", .path0 c!"Infinity"),
    (c!"NaN", .path0 c!"NaN")],
  .newtype c!"FloatValueLit" (.ws (.recognize (.bind none (.opt (.char '-')) (.bind none (.alt (.bind none (.alt (.bind none (.takeWhile1 (.digit)) (.bind none (.char '.') (.bind none (.takeWhile (.digit)) (.ret (.unit))))) (.alt (.bind none (.takeWhile (.digit)) (.bind none (.char '.') (.bind none (.takeWhile1 (.digit)) (.ret (.unit))))) (.altEnd))) (.bind none (.opt (.bind none (.alt (.char 'e') (.alt (.char 'E') (.altEnd))) (.bind none (.opt (.alt (.char '+') (.alt (.char '-') (.altEnd)))) (.bind none (.takeWhile1 (.digit)) (.ret (.unit)))))) (.ret (.unit)))) (.alt (.bind none (.takeWhile1 (.digit)) (.bind none (.alt (.char 'e') (.alt (.char 'E') (.altEnd))) (.bind none (.opt (.alt (.char '+') (.alt (.char '-') (.altEnd)))) (.bind none (.takeWhile1 (.digit)) (.ret (.unit)))))) (.altEnd))) (.ret (.unit))))))]

/-- The declarations in `/repo/src/literal.rs` -/
def literalDecls : List Decl := literalDecls0

/-- The declarations of `/repo/src/mixin.rs`. -/
def mixinDecls0 : List Decl := [
  .alias c!"MixinMembers" (.path1 c!"Vec" (.path0 c!"MixinMember")),
  .enum c!"MixinMember" [
    (c!"Const", .path0 c!"ConstMember"),
    (c!"Operation", .path0 c!"OperationMixinMember"),
    (c!"Attribute", .path0 c!"AttributeMixinMember"),
    (c!"Stringifier", .path0 c!"StringifierMember")],
  .struct c!"OperationMixinMember" [] [
    ⟨c!"attributes", .path1 c!"Option" (.path0 c!"ExtendedAttributeList"), .weedle⟩,
    ⟨c!"stringifier", .path1 c!"Option" (.path0 c!"Stringifier"), .weedle⟩,
    ⟨c!"return_type", .path0 c!"ReturnType", .weedle⟩,
    ⟨c!"identifier", .path1 c!"Option" (.path0 c!"Identifier"), .weedle⟩,
    ⟨c!"args", .path1 c!"Parenthesized" (.path0 c!"ArgumentList"), .weedle⟩,
    ⟨c!"semi_colon", .path0 c!"SemiColon", .weedle⟩],
  .struct c!"AttributeMixinMember" [] [
    ⟨c!"attributes", .path1 c!"Option" (.path0 c!"ExtendedAttributeList"), .weedle⟩,
    ⟨c!"stringifier", .path1 c!"Option" (.path0 c!"Stringifier"), .weedle⟩,
    ⟨c!"readonly", .path1 c!"Option" (.path0 c!"ReadOnly"), .weedle⟩,
    ⟨c!"attribute", .path0 c!"Attribute", .weedle⟩,
    ⟨c!"type_", .path0 c!"AttributedType", .weedle⟩,
    ⟨c!"identifier", .path0 c!"Identifier", .weedle⟩,
    ⟨c!"semi_colon", .path0 c!"SemiColon", .weedle⟩]]

/-- The declarations in `/repo/src/mixin.rs` -/
def mixinDecls : List Decl := mixinDecls0

/-- The declarations of `/repo/src/namespace.rs`. -/
def namespaceDecls0 : List Decl := [
  .alias c!"NamespaceMembers" (.path1 c!"Vec" (.path0 c!"NamespaceMember")),
  .enum c!"NamespaceMember" [
    (c!"Const", .path0 c!"ConstNamespaceMember"),
    (c!"Operation", .path0 c!"OperationNamespaceMember"),
    (c!"Attribute", .path0 c!"AttributeNamespaceMember")],
  .struct c!"ConstNamespaceMember" [] [
    ⟨c!"attributes", .path1 c!"Option" (.path0 c!"ExtendedAttributeList"), .weedle⟩,
    ⟨c!"const_", .path0 c!"Const", .weedle⟩,
    ⟨c!"const_type", .path0 c!"ConstType", .weedle⟩,
    ⟨c!"identifier", .path0 c!"Identifier", .weedle⟩,
    ⟨c!"assign", .path0 c!"Assign", .weedle⟩,
    ⟨c!"const_value", .path0 c!"ConstValue", .weedle⟩,
    ⟨c!"semi_colon", .path0 c!"SemiColon", .weedle⟩],
  .struct c!"OperationNamespaceMember" [] [
    ⟨c!"attributes", .path1 c!"Option" (.path0 c!"ExtendedAttributeList"), .weedle⟩,
    ⟨c!"return_type", .path0 c!"ReturnType", .weedle⟩,
    ⟨c!"identifier", .path1 c!"Option" (.path0 c!"Identifier"), .weedle⟩,
    ⟨c!"args", .path1 c!"Parenthesized" (.path0 c!"ArgumentList"), .weedle⟩,
    ⟨c!"semi_colon", .path0 c!"SemiColon", .weedle⟩],
  .struct c!"AttributeNamespaceMember" [] [
    ⟨c!"attributes", .path1 c!"Option" (.path0 c!"ExtendedAttributeList"), .weedle⟩,
    ⟨c!"readonly", .path0 c!"ReadOnly", .weedle⟩,
    ⟨c!"attribute", .path0 c!"Attribute", .weedle⟩,
    ⟨c!"type_", .path0 c!"AttributedType", .weedle⟩,
    ⟨c!"identifier", .path0 c!"Identifier", .weedle⟩,
    ⟨c!"semi_colon", .path0 c!"SemiColon", .weedle⟩]]

/-- The declarations in `/repo/src/namespace.rs` -/
def namespaceDecls : List Decl := namespaceDecls0

/-- Part 1 of the declarations of `/repo/src/term.rs:55-312`. -/
def termDecls0 : List Decl := [
  .fn c!"OpenParen" [] (.bind none (.ws (.tag c!"(")) (.ret (.token c!"OpenParen"))),
  .fn c!"CloseParen" [] (.bind none (.ws (.tag c!")")) (.ret (.token c!"CloseParen"))),
  .fn c!"OpenBracket" [] (.bind none (.ws (.tag c!"[")) (.ret (.token c!"OpenBracket"))),
  .fn c!"CloseBracket" [] (.bind none (.ws (.tag c!"]")) (.ret (.token c!"CloseBracket"))),
  .fn c!"OpenBrace" [] (.bind none (.ws (.tag c!"{")) (.ret (.token c!"OpenBrace"))),
  .fn c!"CloseBrace" [] (.bind none (.ws (.tag c!"}")) (.ret (.token c!"CloseBrace"))),
  .fn c!"Comma" [] (.bind none (.ws (.tag c!",")) (.ret (.token c!"Comma"))),
  .fn c!"Minus" [] (.bind none (.ws (.tag c!"-")) (.ret (.token c!"Minus"))),
  .fn c!"Dot" [] (.bind none (.ws (.tag c!".")) (.ret (.token c!"Dot"))),
  .fn c!"Ellipsis" [] (.bind none (.ws (.tag c!"...")) (.ret (.token c!"Ellipsis"))),
  .fn c!"Colon" [] (.bind none (.ws (.tag c!":")) (.ret (.token c!"Colon"))),
  .fn c!"SemiColon" [] (.bind none (.ws (.tag c!";")) (.ret (.token c!"SemiColon"))),
  .fn c!"LessThan" [] (.bind none (.ws (.tag c!"<")) (.ret (.token c!"LessThan"))),
  .fn c!"Assign" [] (.bind none (.ws (.tag c!"=")) (.ret (.token c!"Assign"))),
  .fn c!"GreaterThan" [] (.bind none (.ws (.tag c!">")) (.ret (.token c!"GreaterThan"))),
  .fn c!"QMark" [] (.bind none (.ws (.tag c!"?")) (.ret (.token c!"QMark"))),
  .fn c!"Asterisk" [] (.bind none (.ws (.tag c!"*")) (.ret (.token c!"Asterisk"))),
  .fn c!"Or" [] (.bind none (.ws (.identTag c!"or")) (.ret (.token c!"Or"))),
  .fn c!"Optional" [] (.bind none (.ws (.identTag c!"optional")) (.ret (.token c!"Optional"))),
  .fn c!"Async" [] (.bind none (.ws (.identTag c!"async")) (.ret (.token c!"Async"))),
  .fn c!"Attribute" [] (.bind none (.ws (.identTag c!"attribute")) (.ret (.token c!"Attribute"))),
  .fn c!"Callback" [] (.bind none (.ws (.identTag c!"callback")) (.ret (.token c!"Callback"))),
  .fn c!"Const" [] (.bind none (.ws (.identTag c!"const")) (.ret (.token c!"Const"))),
  .fn c!"Deleter" [] (.bind none (.ws (.identTag c!"deleter")) (.ret (.token c!"Deleter"))),
  .fn c!"Dictionary" [] (.bind none (.ws (.identTag c!"dictionary")) (.ret (.token c!"Dictionary"))),
  .fn c!"Enum" [] (.bind none (.ws (.identTag c!"enum")) (.ret (.token c!"Enum"))),
  .fn c!"Getter" [] (.bind none (.ws (.identTag c!"getter")) (.ret (.token c!"Getter"))),
  .fn c!"Includes" [] (.bind none (.ws (.identTag c!"includes")) (.ret (.token c!"Includes"))),
  .fn c!"Inherit" [] (.bind none (.ws (.identTag c!"inherit")) (.ret (.token c!"Inherit"))),
  .fn c!"Interface" [] (.bind none (.ws (.identTag c!"interface")) (.ret (.token c!"Interface"))),
  .fn c!"Iterable" [] (.bind none (.ws (.identTag c!"iterable")) (.ret (.token c!"Iterable"))),
  .fn c!"Maplike" [] (.bind none (.ws (.identTag c!"maplike")) (.ret (.token c!"Maplike"))),
  .fn c!"Namespace" [] (.bind none (.ws (.identTag c!"namespace")) (.ret (.token c!"Namespace"))),
  .fn c!"Partial" [] (.bind none (.ws (.identTag c!"partial")) (.ret (.token c!"Partial"))),
  .fn c!"Required" [] (.bind none (.ws (.identTag c!"required")) (.ret (.token c!"Required"))),
  .fn c!"Setlike" [] (.bind none (.ws (.identTag c!"setlike")) (.ret (.token c!"Setlike"))),
  .fn c!"Setter" [] (.bind none (.ws (.identTag c!"setter")) (.ret (.token c!"Setter"))),
  .fn c!"Static" [] (.bind none (.ws (.identTag c!"static")) (.ret (.token c!"Static"))),
  .fn c!"Stringifier" [] (.bind none (.ws (.identTag c!"stringifier")) (.ret (.token c!"Stringifier"))),
  .fn c!"Typedef" [] (.bind none (.ws (.identTag c!"typedef")) (.ret (.token c!"Typedef")))]

/-- Part 2 of the declarations of `/repo/src/term.rs:55-312`. -/
def termDecls1 : List Decl := [
  .fn c!"Unrestricted" [] (.bind none (.ws (.identTag c!"unrestricted")) (.ret (.token c!"Unrestricted"))),
  .fn c!"Symbol" [] (.bind none (.ws (.identTag c!"symbol")) (.ret (.token c!"Symbol"))),
  .fn c!"NegInfinity" [] (.bind none (.ws (.identTag c!"-Infinity")) (.ret (.token c!"NegInfinity"))),
  .fn c!"ByteString" [] (.bind none (.ws (.identTag c!"ByteString")) (.ret (.token c!"ByteString"))),
  .fn c!"DOMString" [] (.bind none (.ws (.identTag c!"DOMString")) (.ret (.token c!"DOMString"))),
  .fn c!"FrozenArray" [] (.bind none (.ws (.identTag c!"FrozenArray")) (.ret (.token c!"FrozenArray"))),
  .fn c!"Infinity" [] (.bind none (.ws (.identTag c!"Infinity")) (.ret (.token c!"Infinity"))),
  .fn c!"NaN" [] (.bind none (.ws (.identTag c!"NaN")) (.ret (.token c!"NaN"))),
  .fn c!"USVString" [] (.bind none (.ws (.identTag c!"USVString")) (.ret (.token c!"USVString"))),
  .fn c!"Any" [] (.bind none (.ws (.identTag c!"any")) (.ret (.token c!"Any"))),
  .fn c!"Boolean" [] (.bind none (.ws (.identTag c!"boolean")) (.ret (.token c!"Boolean"))),
  .fn c!"Byte" [] (.bind none (.ws (.identTag c!"byte")) (.ret (.token c!"Byte"))),
  .fn c!"Double" [] (.bind none (.ws (.identTag c!"double")) (.ret (.token c!"Double"))),
  .fn c!"False" [] (.bind none (.ws (.identTag c!"false")) (.ret (.token c!"False"))),
  .fn c!"Float" [] (.bind none (.ws (.identTag c!"float")) (.ret (.token c!"Float"))),
  .fn c!"Long" [] (.bind none (.ws (.identTag c!"long")) (.ret (.token c!"Long"))),
  .fn c!"Null" [] (.bind none (.ws (.identTag c!"null")) (.ret (.token c!"Null"))),
  .fn c!"Object" [] (.bind none (.ws (.identTag c!"object")) (.ret (.token c!"Object"))),
  .fn c!"Octet" [] (.bind none (.ws (.identTag c!"octet")) (.ret (.token c!"Octet"))),
  .fn c!"Sequence" [] (.bind none (.ws (.identTag c!"sequence")) (.ret (.token c!"Sequence"))),
  .fn c!"Short" [] (.bind none (.ws (.identTag c!"short")) (.ret (.token c!"Short"))),
  .fn c!"True" [] (.bind none (.ws (.identTag c!"true")) (.ret (.token c!"True"))),
  .fn c!"Unsigned" [] (.bind none (.ws (.identTag c!"unsigned")) (.ret (.token c!"Unsigned"))),
  .fn c!"Undefined" [] (.bind none (.ws (.identTag c!"undefined")) (.ret (.token c!"Undefined"))),
  .fn c!"Record" [] (.bind none (.ws (.identTag c!"record")) (.ret (.token c!"Record"))),
  .fn c!"ArrayBuffer" [] (.bind none (.ws (.identTag c!"ArrayBuffer")) (.ret (.token c!"ArrayBuffer"))),
  .fn c!"DataView" [] (.bind none (.ws (.identTag c!"DataView")) (.ret (.token c!"DataView"))),
  .fn c!"Int8Array" [] (.bind none (.ws (.identTag c!"Int8Array")) (.ret (.token c!"Int8Array"))),
  .fn c!"Int16Array" [] (.bind none (.ws (.identTag c!"Int16Array")) (.ret (.token c!"Int16Array"))),
  .fn c!"Int32Array" [] (.bind none (.ws (.identTag c!"Int32Array")) (.ret (.token c!"Int32Array"))),
  .fn c!"Uint8Array" [] (.bind none (.ws (.identTag c!"Uint8Array")) (.ret (.token c!"Uint8Array"))),
  .fn c!"Uint16Array" [] (.bind none (.ws (.identTag c!"Uint16Array")) (.ret (.token c!"Uint16Array"))),
  .fn c!"Uint32Array" [] (.bind none (.ws (.identTag c!"Uint32Array")) (.ret (.token c!"Uint32Array"))),
  .fn c!"Uint8ClampedArray" [] (.bind none (.ws (.identTag c!"Uint8ClampedArray")) (.ret (.token c!"Uint8ClampedArray"))),
  .fn c!"Float32Array" [] (.bind none (.ws (.identTag c!"Float32Array")) (.ret (.token c!"Float32Array"))),
  .fn c!"Float64Array" [] (.bind none (.ws (.identTag c!"Float64Array")) (.ret (.token c!"Float64Array"))),
  .fn c!"ArrayBufferView" [] (.bind none (.ws (.identTag c!"ArrayBufferView")) (.ret (.token c!"ArrayBufferView"))),
  .fn c!"BufferSource" [] (.bind none (.ws (.identTag c!"BufferSource")) (.ret (.token c!"BufferSource"))),
  .fn c!"Promise" [] (.bind none (.ws (.identTag c!"Promise")) (.ret (.token c!"Promise"))),
  .fn c!"Error" [] (.bind none (.ws (.identTag c!"Error")) (.ret (.token c!"Error")))]

/-- Part 3 of the declarations of `/repo/src/term.rs:55-312`. -/
def termDecls2 : List Decl := [
  .fn c!"ReadOnly" [] (.bind none (.ws (.identTag c!"readonly")) (.ret (.token c!"ReadOnly"))),
  .fn c!"Mixin" [] (.bind none (.ws (.identTag c!"mixin")) (.ret (.token c!"Mixin"))),
  .fn c!"Implements" [] (.bind none (.ws (.identTag c!"implements")) (.ret (.token c!"Implements"))),
  .fn c!"LegacyCaller" [] (.bind none (.ws (.identTag c!"legacycaller")) (.ret (.token c!"LegacyCaller"))),
  .fn c!"Constructor" [] (.bind none (.ws (.identTag c!"constructor")) (.ret (.token c!"Constructor")))]

/-- The declarations in `/repo/src/term.rs` -/
def termDecls : List Decl := termDecls0 ++ termDecls1 ++ termDecls2

/-- The declarations of `/repo/src/types.rs`. -/
def typesDecls0 : List Decl := [
  .alias c!"UnionType" (.path1 c!"Parenthesized" (.path2 c!"Punctuated" (.path0 c!"UnionMemberType") (.path0 c!"Or"))),
  .enum c!"Type" [
    (c!"Single", .path0 c!"SingleType"),
    (c!"Union", .path1 c!"MayBeNull" (.path0 c!"UnionType"))],
  .enum c!"SingleType" [
    (c!"Any", .path0 c!"Any"),
    (c!"NonAny", .path0 c!"NonAnyType")],
  .enum c!"NonAnyType" [
    (c!"Promise", .path0 c!"PromiseType"),
    (c!"Integer", .path1 c!"MayBeNull" (.path0 c!"IntegerType")),
    (c!"FloatingPoint", .path1 c!"MayBeNull" (.path0 c!"FloatingPointType")),
    (c!"Boolean", .path1 c!"MayBeNull" (.path0 c!"Boolean")),
    (c!"Byte", .path1 c!"MayBeNull" (.path0 c!"Byte")),
    (c!"Octet", .path1 c!"MayBeNull" (.path0 c!"Octet")),
    (c!"ByteString", .path1 c!"MayBeNull" (.path0 c!"ByteString")),
    (c!"DOMString", .path1 c!"MayBeNull" (.path0 c!"DOMString")),
    (c!"USVString", .path1 c!"MayBeNull" (.path0 c!"USVString")),
    (c!"Sequence", .path1 c!"MayBeNull" (.path0 c!"SequenceType")),
    (c!"Object", .path1 c!"MayBeNull" (.path0 c!"Object")),
    (c!"Symbol", .path1 c!"MayBeNull" (.path0 c!"Symbol")),
    (c!"Error", .path1 c!"MayBeNull" (.path0 c!"Error")),
    (c!"ArrayBuffer", .path1 c!"MayBeNull" (.path0 c!"ArrayBuffer")),
    (c!"DataView", .path1 c!"MayBeNull" (.path0 c!"DataView")),
    (c!"Int8Array", .path1 c!"MayBeNull" (.path0 c!"Int8Array")),
    (c!"Int16Array", .path1 c!"MayBeNull" (.path0 c!"Int16Array")),
    (c!"Int32Array", .path1 c!"MayBeNull" (.path0 c!"Int32Array")),
    (c!"Uint8Array", .path1 c!"MayBeNull" (.path0 c!"Uint8Array")),
    (c!"Uint16Array", .path1 c!"MayBeNull" (.path0 c!"Uint16Array")),
    (c!"Uint32Array", .path1 c!"MayBeNull" (.path0 c!"Uint32Array")),
    (c!"Uint8ClampedArray", .path1 c!"MayBeNull" (.path0 c!"Uint8ClampedArray")),
    (c!"Float32Array", .path1 c!"MayBeNull" (.path0 c!"Float32Array")),
    (c!"Float64Array", .path1 c!"MayBeNull" (.path0 c!"Float64Array")),
    (c!"ArrayBufferView", .path1 c!"MayBeNull" (.path0 c!"ArrayBufferView")),
    (c!"BufferSource", .path1 c!"MayBeNull" (.path0 c!"BufferSource")),
    (c!"FrozenArrayType", .path1 c!"MayBeNull" (.path0 c!"FrozenArrayType")),
    (c!"RecordType", .path1 c!"MayBeNull" (.path0 c!"RecordType")),
    (c!"Identifier", .path1 c!"MayBeNull" (.path0 c!"Identifier"))],
  .struct c!"SequenceType" [] [
    ⟨c!"sequence", .path0 c!"Sequence", .weedle⟩,
    ⟨c!"generics", .path1 c!"Generics" (.path1 c!"Box" (.path0 c!"Type")), .weedle⟩],
  .struct c!"FrozenArrayType" [] [
    ⟨c!"frozen_array", .path0 c!"FrozenArray", .weedle⟩,
    ⟨c!"generics", .path1 c!"Generics" (.path1 c!"Box" (.path0 c!"Type")), .weedle⟩],
  .struct c!"MayBeNull" [c!"T"] [
    ⟨c!"type_", .path0 c!"T", .weedle⟩,
    ⟨c!"q_mark", .path1 c!"Option" (.path0 c!"QMark"), .weedle⟩],
  .struct c!"PromiseType" [] [
    ⟨c!"promise", .path0 c!"Promise", .weedle⟩,
    ⟨c!"generics", .path1 c!"Generics" (.path1 c!"Box" (.path0 c!"ReturnType")), .weedle⟩],
  .enum c!"IntegerType" [
    (c!"LongLong", .path0 c!"LongLongType"),
    (c!"Long", .path0 c!"LongType"),
    (c!"Short", .path0 c!"ShortType")],
  .struct c!"LongLongType" [] [
    ⟨c!"unsigned", .path1 c!"Option" (.path0 c!"Unsigned"), .weedle⟩,
    ⟨c!"long_long", .path2 c!"(,)" (.path0 c!"Long") (.path0 c!"Long"), .weedle⟩],
  .struct c!"LongType" [] [
    ⟨c!"unsigned", .path1 c!"Option" (.path0 c!"Unsigned"), .weedle⟩,
    ⟨c!"long", .path0 c!"Long", .weedle⟩],
  .struct c!"ShortType" [] [
    ⟨c!"unsigned", .path1 c!"Option" (.path0 c!"Unsigned"), .weedle⟩,
    ⟨c!"short", .path0 c!"Short", .weedle⟩],
  .enum c!"FloatingPointType" [
    (c!"Float", .path0 c!"FloatType"),
    (c!"Double", .path0 c!"DoubleType")],
  .struct c!"FloatType" [] [
    ⟨c!"unrestricted", .path1 c!"Option" (.path0 c!"Unrestricted"), .weedle⟩,
    ⟨c!"float", .path0 c!"Float", .weedle⟩],
  .struct c!"DoubleType" [] [
    ⟨c!"unrestricted", .path1 c!"Option" (.path0 c!"Unrestricted"), .weedle⟩,
    ⟨c!"double", .path0 c!"Double", .weedle⟩],
  .struct c!"RecordType" [] [
    ⟨c!"record", .path0 c!"Record", .weedle⟩,
    ⟨c!"generics", .path1 c!"Generics" (.path3 c!"(,,)" (.path1 c!"Box" (.path0 c!"RecordKeyType")) (.path0 c!"Comma") (.path1 c!"Box" (.path0 c!"Type"))), .weedle⟩],
  .enum c!"RecordKeyType" [
    (c!"Byte", .path0 c!"ByteString"),
    (c!"DOM", .path0 c!"DOMString"),
    (c!"USV", .path0 c!"USVString"),
    (c!"NonAny", .path0 c!"NonAnyType")],
  .enum c!"UnionMemberType" [
    (c!"Single", .path0 c!"AttributedNonAnyType"),
    (c!"Union", .path1 c!"MayBeNull" (.path0 c!"UnionType"))],
  .enum c!"ConstType" [
    (c!"Integer", .path1 c!"MayBeNull" (.path0 c!"IntegerType")),
    (c!"FloatingPoint", .path1 c!"MayBeNull" (.path0 c!"FloatingPointType")),
    (c!"Boolean", .path1 c!"MayBeNull" (.path0 c!"Boolean")),
    (c!"Byte", .path1 c!"MayBeNull" (.path0 c!"Byte")),
    (c!"Octet", .path1 c!"MayBeNull" (.path0 c!"Octet")),
    (c!"Identifier", .path1 c!"MayBeNull" (.path0 c!"Identifier"))],
  .enum c!"ReturnType" [
    (c!"Undefined", .path0 c!"Undefined"),
    (c!"Type", .path0 c!"Type")],
  .struct c!"AttributedType" [] [
    ⟨c!"attributes", .path1 c!"Option" (.path0 c!"ExtendedAttributeList"), .weedle⟩,
    ⟨c!"type_", .path0 c!"Type", .weedle⟩],
  .struct c!"AttributedNonAnyType" [] [
    ⟨c!"attributes", .path1 c!"Option" (.path0 c!"ExtendedAttributeList"), .weedle⟩,
    ⟨c!"type_", .path0 c!"NonAnyType", .weedle⟩]]

/-- The declarations in `/repo/src/types.rs` -/
def typesDecls : List Decl := typesDecls0

/-- The declarations of `/repo/src/whitespace.rs`. -/
def whitespaceDecls0 : List Decl := [
  .fn c!"sp" [] (.recognize (.many0 (.alt (.bind none (.tag c!"//") (.bind none (.takeUntil c!"\n") (.bind none (.char '\n') (.ret (.unit))))) (.alt (.map (.takeWhile1 (.or (.eq '\t') (.or (.eq '\n') (.or (.eq '\x0d') (.eq ' '))))) c!"_" (.unit)) (.alt (.bind none (.tag c!"/*") (.bind none (.takeUntil c!"*/") (.bind none (.tag c!"*/") (.ret (.unit))))) (.altEnd))))))]

/-- The declarations in `/repo/src/whitespace.rs` -/
def whitespaceDecls : List Decl := whitespaceDecls0

/-- The declarations of the crate. `/repo/src/*.rs`, in this order: whatever `Verif/Source/Read.lean` reads. -/
def decls : List Decl :=
  argumentDecls ++ attributeDecls ++ commonDecls ++ dictionaryDecls ++ interfaceDecls ++ libDecls ++ literalDecls ++
  mixinDecls ++ namespaceDecls ++ termDecls ++ typesDecls ++ whitespaceDecls

end Verif.Source
