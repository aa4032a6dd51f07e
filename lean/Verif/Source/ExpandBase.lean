import Verif.Source.Lower
import Verif.Source.Same
import Verif.Source.Macros
import Verif.Source.Text
import Verif.Source.Decls

/-!
# The items of the crate

The text of the source, `/repo/src/*.rs`, with all macros of the crate expanded. What the expansion consists of is checked by the kernel:
the items that belong to the declarations, in another order, and the function `weedle::parse`.
-/

namespace Verif.Source

/-- The macros that are defined in a file: `/repo/src/macros.rs:1-614`, `/repo/src/term.rs:1-573`, `/repo/src/whitespace.rs:20-31`. -/
def macrosOf (lines : List Str) : Option Macros :=
  match trees lines with
  | some ts => readMacros 100 ts
  | none => none

/-- The items of one of the files `/repo/src/*.rs`. -/
def expandFile (ms : Macros) (lines : List Str) : Option (List Item) :=
  match trees lines with
  | some ts => rustItems ms 400 400 ts
  | none => none

/-- All macros of the crate, of the files `/repo/src/*.rs`. -/
def readCrateMacros : Option Macros := do
  let mss ← [macros_rs, term_rs, whitespace_rs, argument_rs, attribute_rs, common_rs, dictionary_rs, interface_rs, lib_rs,
    literal_rs, mixin_rs, namespace_rs, types_rs].mapM macrosOf
  some mss.flatten

/-- All items of the crate, of the files `/repo/src/*.rs`. -/
def expandSource : Option (List Item) := do
  let ms ← readCrateMacros
  let iss ← [argument_rs, attribute_rs, common_rs, dictionary_rs, interface_rs, lib_rs, literal_rs, mixin_rs,
    namespace_rs, term_rs, types_rs, whitespace_rs].mapM (expandFile ms)
  some iss.flatten

/-- The elements at the given places. -/
def pick {α : Type} (is : List Nat) (l : List α) : List α := is.filterMap (l[·]?)

/-- `/repo/src/lib.rs:83-90` -/
def parseEntry : Entry := ⟨c!"raw", c!"remaining", c!"parsed", .path0 c!"Definitions", c!"raw", c!"remaining", c!"parsed"⟩

/-- The order of the items of `/repo/src/argument.rs:1-76`. -/
def argumentOrder : List Nat :=
  [0, 9, 1, 10, 5, 6, 11, 7, 8, 2, 3, 4]

/-- The order of the items of `/repo/src/attribute.rs:1-106`. -/
def attributeOrder : List Nat :=
  [0, 1, 25, 2, 26, 10, 11, 27, 12, 13, 28, 14, 15, 29, 30, 16, 17, 31, 32, 18, 19, 33, 34, 35, 20, 3, 4, 5,
   6, 7, 8, 9, 36, 37, 21, 22, 23, 24]

/-- The order of the items of `/repo/src/common.rs:1-208`. -/
def commonOrder : List Nat :=
  [0, 1, 2, 3, 4, 20, 21, 5, 6, 22, 23, 7, 8, 24, 25, 9, 10, 26, 27, 11, 12, 28, 13, 14, 29, 15, 16, 30, 31,
   32, 17, 33, 34, 18, 19]

/-- The order of the items of `/repo/src/dictionary.rs:1-33`. -/
def dictionaryOrder : List Nat :=
  [0, 3, 1, 2]

/-- The order of the items of `/repo/src/interface.rs:1-249`. -/
def interfaceOrder : List Nat :=
  [0, 59, 60, 1, 2, 61, 3, 62, 14, 15, 63, 16, 17, 64, 18, 19, 65, 20, 21, 66, 22, 67, 26, 27, 68, 28, 29, 23,
   24, 25, 69, 30, 70, 34, 35, 71, 36, 37, 31, 32, 33, 72, 38, 39, 73, 40, 41, 74, 75, 42, 43, 4, 5, 6, 7, 8,
   9, 10, 11, 12, 13, 76, 77, 44, 45, 46, 47, 48, 49, 78, 79, 50, 51, 52, 53, 54, 80, 81, 55, 56, 57, 58]

/-- The order of the items of `/repo/src/lib.rs:1-425`. -/
def libOrder : List Nat :=
  [0, 46, 1, 47, 17, 18, 48, 19, 20, 49, 21, 22, 50, 23, 24, 51, 25, 26, 52, 27, 28, 53, 29, 30, 54, 31, 32,
   55, 33, 34, 56, 35, 36, 57, 37, 38, 58, 39, 40, 59, 41, 42, 60, 43, 44, 2, 3, 4, 5, 6, 7, 8, 9, 10, 11, 12,
   13, 14, 15, 16, 45]

/-- The order of the items of `/repo/src/literal.rs:1-281`. -/
def literalOrder : List Nat :=
  [36, 37, 0, 38, 39, 40, 5, 41, 42, 43, 6, 44, 45, 46, 7, 1, 2, 3, 4, 47, 48, 49, 8, 50, 51, 9, 52, 53, 18,
   19, 54, 55, 20, 21, 10, 11, 12, 13, 14, 15, 16, 17, 56, 57, 22, 23, 24, 25, 26, 27, 58, 59, 60, 28, 61, 62,
   29, 63, 64, 65, 35, 30, 31, 32, 33, 34]

/-- The order of the items of `/repo/src/mixin.rs:1-60`. -/
def mixinOrder : List Nat :=
  [0, 11, 1, 12, 7, 8, 13, 9, 10, 2, 3, 4, 5, 6]

/-- The order of the items of `/repo/src/namespace.rs:1-70`. -/
def namespaceOrder : List Nat :=
  [0, 12, 1, 13, 6, 7, 14, 8, 9, 15, 10, 11, 2, 3, 4, 5]

/-- The order of the items of `/repo/src/term.rs:1-704`. -/
def termOrder : List Nat :=
  [85, 86, 0, 87, 88, 1, 89, 90, 2, 91, 92, 3, 93, 94, 4, 95, 96, 5, 97, 98, 6, 99, 100, 7, 101, 102, 8, 103,
   104, 9, 105, 106, 10, 107, 108, 11, 109, 110, 12, 111, 112, 13, 113, 114, 14, 115, 116, 15, 117, 118, 16,
   119, 120, 17, 121, 122, 18, 123, 124, 19, 125, 126, 20, 127, 128, 21, 129, 130, 22, 131, 132, 23, 133, 134,
   24, 135, 136, 25, 137, 138, 26, 139, 140, 27, 141, 142, 28, 143, 144, 29, 145, 146, 30, 147, 148, 31, 149,
   150, 32, 151, 152, 33, 153, 154, 34, 155, 156, 35, 157, 158, 36, 159, 160, 37, 161, 162, 38, 163, 164, 39,
   165, 166, 40, 167, 168, 41, 169, 170, 42, 171, 172, 43, 173, 174, 44, 175, 176, 45, 177, 178, 46, 179, 180,
   47, 181, 182, 48, 183, 184, 49, 185, 186, 50, 187, 188, 51, 189, 190, 52, 191, 192, 53, 193, 194, 54, 195,
   196, 55, 197, 198, 56, 199, 200, 57, 201, 202, 58, 203, 204, 59, 205, 206, 60, 207, 208, 61, 209, 210, 62,
   211, 212, 63, 213, 214, 64, 215, 216, 65, 217, 218, 66, 219, 220, 67, 221, 222, 68, 223, 224, 69, 225, 226,
   70, 227, 228, 71, 229, 230, 72, 231, 232, 73, 233, 234, 74, 235, 236, 75, 237, 238, 76, 239, 240, 77, 241,
   242, 78, 243, 244, 79, 245, 246, 80, 247, 248, 81, 249, 250, 82, 251, 252, 83, 253, 254, 84]

/-- The order of the items of `/repo/src/types.rs:1-385`. -/
def typesOrder : List Nat :=
  [0, 95, 1, 96, 5, 6, 7, 8, 2, 3, 4, 97, 9, 10, 11, 12, 13, 14, 15, 16, 17, 18, 19, 20, 21, 22, 23, 24, 25,
   26, 27, 28, 29, 30, 31, 32, 33, 34, 35, 36, 37, 38, 39, 98, 40, 41, 99, 42, 43, 100, 101, 44, 45, 102, 46,
   47, 103, 104, 48, 105, 106, 53, 54, 107, 108, 55, 56, 109, 110, 57, 58, 49, 50, 51, 52, 111, 112, 59, 113,
   114, 63, 64, 115, 116, 65, 66, 60, 61, 62, 117, 67, 68, 118, 69, 70, 71, 72, 73, 74, 119, 75, 76, 77, 78,
   120, 79, 80, 81, 82, 83, 84, 85, 86, 121, 87, 88, 89, 90, 122, 91, 92, 123, 93, 94]

/-- The order of the items of `/repo/src/whitespace.rs:1-31`. -/
def whitespaceOrder : List Nat :=
  [0]

/-- The traits in `/repo/src/macros.rs:191`, `232` and `411`. -/
def stdTraits : List Str := [c!"Clone", c!"Debug", c!"Eq", c!"PartialEq", c!"Ord", c!"PartialOrd", c!"Hash"]

/-- The traits in `/repo/src/term.rs:5` and `42`. -/
def termTraits : List Str :=
  [c!"Clone", c!"Copy", c!"Debug", c!"Default", c!"Eq", c!"Hash", c!"Ord", c!"PartialEq", c!"PartialOrd"]

/-- The structs without named fields and the derived traits in `/repo/src/argument.rs:1-76`. -/
def argumentTypes : List Item := [
  .derive c!"Argument" stdTraits,
  .derive c!"SingleArgument" stdTraits,
  .derive c!"VariadicArgument" stdTraits]

/-- The structs without named fields and the derived traits in `/repo/src/attribute.rs:1-106`. -/
def attributeTypes : List Item := [
  .derive c!"ExtendedAttribute" stdTraits,
  .derive c!"ExtendedAttributeArgList" stdTraits,
  .derive c!"ExtendedAttributeNamedArgList" stdTraits,
  .derive c!"ExtendedAttributeIdentList" stdTraits,
  .derive c!"ExtendedAttributeIdent" [c!"Copy"],
  .derive c!"ExtendedAttributeIdent" stdTraits,
  .derive c!"ExtendedAttributeWildCard" [c!"Copy"],
  .derive c!"ExtendedAttributeWildCard" stdTraits,
  .derive c!"ExtendedAttributeNoArgs" [c!"Copy"],
  .derive c!"ExtendedAttributeNoArgs" stdTraits,
  .tuple c!"ExtendedAttributeNoArgs" [] (.path0 c!"Identifier"),
  .derive c!"IdentifierOrString" [c!"Copy"],
  .derive c!"IdentifierOrString" stdTraits]

/-- The structs without named fields and the derived traits in `/repo/src/common.rs:1-208`. -/
def commonTypes : List Item := [
  .derive c!"Parenthesized" [c!"Copy", c!"Default"],
  .derive c!"Parenthesized" stdTraits,
  .derive c!"Bracketed" [c!"Copy", c!"Default"],
  .derive c!"Bracketed" stdTraits,
  .derive c!"Braced" [c!"Copy", c!"Default"],
  .derive c!"Braced" stdTraits,
  .derive c!"Generics" [c!"Copy", c!"Default"],
  .derive c!"Generics" stdTraits,
  .derive c!"Punctuated" stdTraits,
  .derive c!"PunctuatedNonEmpty" stdTraits,
  .derive c!"Identifier" [c!"Copy"],
  .derive c!"Identifier" stdTraits,
  .tuple c!"Identifier" [] (.path0 c!"&str"),
  .derive c!"Default" [c!"Copy"],
  .derive c!"Default" stdTraits]

/-- The structs without named fields and the derived traits in `/repo/src/dictionary.rs:1-33`. -/
def dictionaryTypes : List Item := [
  .derive c!"DictionaryMember" stdTraits]

/-- The structs without named fields and the derived traits in `/repo/src/interface.rs:1-249`. -/
def interfaceTypes : List Item := [
  .derive c!"Inheritance" [c!"Copy"],
  .derive c!"Inheritance" stdTraits,
  .derive c!"InterfaceMember" stdTraits,
  .derive c!"ConstMember" stdTraits,
  .derive c!"AttributeInterfaceMember" stdTraits,
  .derive c!"ConstructorInterfaceMember" stdTraits,
  .derive c!"OperationInterfaceMember" stdTraits,
  .derive c!"IterableInterfaceMember" stdTraits,
  .derive c!"SingleTypedIterable" stdTraits,
  .derive c!"DoubleTypedIterable" stdTraits,
  .derive c!"AsyncIterableInterfaceMember" stdTraits,
  .derive c!"SingleTypedAsyncIterable" stdTraits,
  .derive c!"DoubleTypedAsyncIterable" stdTraits,
  .derive c!"MaplikeInterfaceMember" stdTraits,
  .derive c!"SetlikeInterfaceMember" stdTraits,
  .derive c!"StringifierMember" [c!"Default"],
  .derive c!"StringifierMember" stdTraits,
  .derive c!"Special" [c!"Copy"],
  .derive c!"Special" stdTraits,
  .derive c!"StringifierOrInheritOrStatic" [c!"Copy"],
  .derive c!"StringifierOrInheritOrStatic" stdTraits,
  .derive c!"StringifierOrStatic" [c!"Copy"],
  .derive c!"StringifierOrStatic" stdTraits]

/-- The structs without named fields and the derived traits in `/repo/src/lib.rs:1-425`. -/
def libTypes : List Item := [
  .derive c!"Definition" stdTraits,
  .derive c!"CallbackDefinition" stdTraits,
  .derive c!"CallbackInterfaceDefinition" stdTraits,
  .derive c!"InterfaceDefinition" stdTraits,
  .derive c!"InterfaceMixinDefinition" stdTraits,
  .derive c!"NamespaceDefinition" stdTraits,
  .derive c!"DictionaryDefinition" stdTraits,
  .derive c!"PartialInterfaceDefinition" stdTraits,
  .derive c!"PartialInterfaceMixinDefinition" stdTraits,
  .derive c!"PartialDictionaryDefinition" stdTraits,
  .derive c!"PartialNamespaceDefinition" stdTraits,
  .derive c!"EnumDefinition" stdTraits,
  .derive c!"TypedefDefinition" stdTraits,
  .derive c!"IncludesStatementDefinition" stdTraits,
  .derive c!"ImplementsDefinition" stdTraits]

/-- The structs without named fields and the derived traits in `/repo/src/literal.rs:1-281`. -/
def literalTypes : List Item := [
  .derive c!"IntegerLit" [c!"Copy"],
  .derive c!"IntegerLit" stdTraits,
  .derive c!"DecLit" [c!"Copy"],
  .derive c!"DecLit" stdTraits,
  .tuple c!"DecLit" [] (.path0 c!"&str"),
  .derive c!"HexLit" [c!"Copy"],
  .derive c!"HexLit" stdTraits,
  .tuple c!"HexLit" [] (.path0 c!"&str"),
  .derive c!"OctLit" [c!"Copy"],
  .derive c!"OctLit" stdTraits,
  .tuple c!"OctLit" [] (.path0 c!"&str"),
  .derive c!"StringLit" [c!"Copy"],
  .derive c!"StringLit" stdTraits,
  .tuple c!"StringLit" [] (.path0 c!"&str"),
  .derive c!"DefaultValue" [c!"Copy"],
  .derive c!"DefaultValue" stdTraits,
  .derive c!"EmptyArrayLit" [c!"Copy", c!"Default"],
  .derive c!"EmptyArrayLit" stdTraits,
  .derive c!"EmptyDictionaryLit" [c!"Copy", c!"Default"],
  .derive c!"EmptyDictionaryLit" stdTraits,
  .derive c!"ConstValue" [c!"Copy"],
  .derive c!"ConstValue" stdTraits,
  .derive c!"BooleanLit" [c!"Copy"],
  .derive c!"BooleanLit" stdTraits,
  .tuple c!"BooleanLit" [] (.path0 c!"bool"),
  .derive c!"FloatLit" [c!"Copy"],
  .derive c!"FloatLit" stdTraits,
  .derive c!"FloatValueLit" [c!"Copy"],
  .derive c!"FloatValueLit" stdTraits,
  .tuple c!"FloatValueLit" [] (.path0 c!"&str")]

/-- The structs without named fields and the derived traits in `/repo/src/mixin.rs:1-60`. -/
def mixinTypes : List Item := [
  .derive c!"MixinMember" stdTraits,
  .derive c!"OperationMixinMember" stdTraits,
  .derive c!"AttributeMixinMember" stdTraits]

/-- The structs without named fields and the derived traits in `/repo/src/namespace.rs:1-70`. -/
def namespaceTypes : List Item := [
  .derive c!"NamespaceMember" stdTraits,
  .derive c!"ConstNamespaceMember" stdTraits,
  .derive c!"OperationNamespaceMember" stdTraits,
  .derive c!"AttributeNamespaceMember" stdTraits]

/-- The structs without named fields and the derived traits in `/repo/src/term.rs:1-704`. -/
def termTypes : List Item :=
  termDecls.flatMap fun d => [.derive d.name termTraits, .unit d.name]

/-- The structs without named fields and the derived traits in `/repo/src/types.rs:1-385`. -/
def typesTypes : List Item := [
  .derive c!"Type" stdTraits,
  .derive c!"SingleType" stdTraits,
  .derive c!"NonAnyType" stdTraits,
  .derive c!"SequenceType" stdTraits,
  .derive c!"FrozenArrayType" stdTraits,
  .derive c!"MayBeNull" [c!"Copy"],
  .derive c!"MayBeNull" stdTraits,
  .derive c!"PromiseType" stdTraits,
  .derive c!"IntegerType" [c!"Copy"],
  .derive c!"IntegerType" stdTraits,
  .derive c!"LongLongType" [c!"Copy"],
  .derive c!"LongLongType" stdTraits,
  .derive c!"LongType" [c!"Copy"],
  .derive c!"LongType" stdTraits,
  .derive c!"ShortType" [c!"Copy"],
  .derive c!"ShortType" stdTraits,
  .derive c!"FloatingPointType" [c!"Copy"],
  .derive c!"FloatingPointType" stdTraits,
  .derive c!"FloatType" [c!"Copy"],
  .derive c!"FloatType" stdTraits,
  .derive c!"DoubleType" [c!"Copy"],
  .derive c!"DoubleType" stdTraits,
  .derive c!"RecordType" stdTraits,
  .derive c!"RecordKeyType" stdTraits,
  .derive c!"UnionMemberType" stdTraits,
  .derive c!"ConstType" stdTraits,
  .derive c!"ReturnType" stdTraits,
  .derive c!"AttributedType" stdTraits,
  .derive c!"AttributedNonAnyType" stdTraits]

/-- The structs without named fields and the derived traits in `/repo/src/whitespace.rs:1-31`. -/
def whitespaceTypes : List Item := []

/-- The items of `/repo/src/argument.rs` after the expansion of its macros. -/
def argumentItems : List Item := pick argumentOrder (argumentDecls.flatMap Decl.lower ++ argumentTypes)
/-- The items of `/repo/src/attribute.rs` after the expansion of its macros. -/
def attributeItems : List Item := pick attributeOrder (attributeDecls.flatMap Decl.lower ++ attributeTypes)
/-- The items of `/repo/src/common.rs` after the expansion of its macros. -/
def commonItems : List Item := pick commonOrder (commonDecls.flatMap Decl.lower ++ commonTypes)
/-- The items of `/repo/src/dictionary.rs` after the expansion of its macros. -/
def dictionaryItems : List Item := pick dictionaryOrder (dictionaryDecls.flatMap Decl.lower ++ dictionaryTypes)
/-- The items of `/repo/src/interface.rs` after the expansion of its macros. -/
def interfaceItems : List Item := pick interfaceOrder (interfaceDecls.flatMap Decl.lower ++ interfaceTypes)
/-- The items of `/repo/src/lib.rs` after the expansion of its macros. -/
def libItems : List Item := .entry c!"parse" parseEntry :: pick libOrder (libDecls.flatMap Decl.lower ++ libTypes)
/-- The items of `/repo/src/literal.rs` after the expansion of its macros. -/
def literalItems : List Item := pick literalOrder (literalDecls.flatMap Decl.lower ++ literalTypes)
/-- The items of `/repo/src/mixin.rs` after the expansion of its macros. -/
def mixinItems : List Item := pick mixinOrder (mixinDecls.flatMap Decl.lower ++ mixinTypes)
/-- The items of `/repo/src/namespace.rs` after the expansion of its macros. -/
def namespaceItems : List Item := pick namespaceOrder (namespaceDecls.flatMap Decl.lower ++ namespaceTypes)
/-- The items of `/repo/src/term.rs` after the expansion of its macros. -/
def termItems : List Item := pick termOrder (termDecls.flatMap Decl.lower ++ termTypes)
/-- The items of `/repo/src/types.rs` after the expansion of its macros. -/
def typesItems : List Item := pick typesOrder (typesDecls.flatMap Decl.lower ++ typesTypes)
/-- The items of `/repo/src/whitespace.rs` after the expansion of its macros. -/
def whitespaceItems : List Item := pick whitespaceOrder (whitespaceDecls.flatMap Decl.lower ++ whitespaceTypes)

end Verif.Source
