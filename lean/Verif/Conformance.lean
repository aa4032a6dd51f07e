import Verif.Model.Types

/-!
# The unit tests of `/repo`, run on the model

Every `test!` and `test_variants!` of `/repo/src` and the small integration test, evaluated on the model by the kernel.
Where a Rust test checks only a few fields, the whole result is written down. These are tests of the model and
not proofs of properties: they guard against misreadings of the code.
-/

namespace Verif.Conformance
open Nom

set_option maxRecDepth 10000

/-- `T::parse(raw).unwrap()` gives `(rem, val)`. -/
abbrev Gives {α : Type} (g : G α) (raw rem : Str) (val : α) : Prop := g.parse raw = .ok rem val

/-- The remainder of a successful run. -/
def remainder {α : Type} : Res Char α → Option Str
  | .ok r _ => some r
  | _ => none

/-! ## Shorthands -/

def short : Ty := .single (.nonAny (.integer (.short false) false))
def long : Ty := .single (.nonAny (.integer (.long false) false))
def double : Ty := .single (.nonAny (.floatingPoint (.double false) false))
def ref (i : Str) : Ty := .single (.nonAny (.identifier i false))
def domString (q : Bool) : Ty := .single (.nonAny (.builtin .domString q))
def arg (t : Ty) (i : Str) : Argument := .single none false (.mk none t) i none

/-! ## `/repo/src/argument.rs` -/

/-- `should_parse_single_argument` -/
example : Gives G.singleArgument c!"short a" c!""
    (arg short c!"a") := by rfl

/-- `should_parse_variadic_argument` -/
example : Gives G.variadicArgument c!"short... a" c!""
    (.variadic none short c!"a") := by rfl

/-- `should_parse_optional_single_argument` -/
example : Gives G.singleArgument c!"optional short a" c!""
    (.single none true (.mk none short) c!"a" none) := by rfl

/-- `should_parse_optional_single_argument_with_default` -/
example : Gives G.singleArgument c!"optional short a = 5" c!""
    (.single none true (.mk none short) c!"a" (some (.integer (.dec c!"5")))) := by rfl

/-! ## `/repo/src/attribute.rs` -/

/-- `should_parse_attribute_no_args` -/
example : Gives G.extAttrNoArgs c!"Replaceable" c!""
    (.noArgs c!"Replaceable") := by rfl

/-- `should_parse_attribute_arg_list` -/
example : Gives G.extAttrArgList c!"Constructor(double x, double y)" c!""
    (.argList c!"Constructor" [arg double c!"x", arg double c!"y"]) := by rfl

/-- `should_parse_attribute_ident` -/
example : Gives G.extAttrIdent c!"PutForwards=name" c!""
    (.ident c!"PutForwards" (.identifier c!"name")) := by rfl

/-- `should_parse_ident_list` -/
example : Gives G.extAttrIdentList c!"Exposed=(Window,Worker)" c!""
    (.identList c!"Exposed" [c!"Window", c!"Worker"]) := by rfl

/-- `should_parse_named_arg_list` -/
example : Gives G.extAttrNamedArgList c!"NamedConstructor=Image(DOMString src)" c!""
    (.namedArgList c!"NamedConstructor" c!"Image" [arg (domString false) c!"src"]) := by rfl

/-! ## `/repo/src/common.rs` -/

/-- `should_parse_optional_present` -/
example : Gives (.opt G.ident) c!"one" c!""
    (some c!"one") := by rfl

/-- `should_parse_optional_not_present` -/
example : Gives (.opt G.ident) c!"" c!""
    none := by rfl

/-- `should_parse_boxed` -/
example : Gives G.ident c!"one" c!""
    c!"one" := by rfl

/-- `should_parse_vec` -/
example : Gives (.many0 G.ident) c!"one two three" c!""
    [c!"one", c!"two", c!"three"] := by rfl

/-- `should_parse_parenthesized` -/
example : Gives G.ident.parenthesized c!"( one )" c!""
    c!"one" := by rfl

/-- `should_parse_bracketed` -/
example : Gives G.ident.bracketed c!"[ one ]" c!""
    c!"one" := by rfl

/-- `should_parse_braced` -/
example : Gives G.ident.braced c!"{ one }" c!""
    c!"one" := by rfl

/-- `should_parse_generics` -/
example : Gives G.ident.generics c!"<one>" c!""
    c!"one" := by rfl

/-- `should_parse_generics_two` -/
example : Gives (G.generics (do let t ← G.ident; let u ← G.punct .comma; let v ← G.ident; pure (t, u, v))) c!"<one, two>" c!""
    (c!"one", (), c!"two") := by rfl

/-- `should_parse_comma_separated_values` -/
example : Gives (G.ident.punctuated (G.punct .comma)) c!"one, two, three" c!""
    [c!"one", c!"two", c!"three"] := by rfl

/-- `should_not_parse_comma_separated_values_empty` -/
example : ∃ e, (G.ident.punctuatedNonEmpty (G.punct .comma)).parse [] = .err e := ⟨_, rfl⟩

/-- `should_parse_identifier` -/
example : Gives G.ident c!"hello" c!""
    c!"hello" := by rfl

/-- `should_parse_numbered_identifier` -/
example : Gives G.ident c!"hello5" c!""
    c!"hello5" := by rfl

/-- `should_parse_underscored_identifier` -/
example : Gives G.ident c!"_hello_" c!""
    c!"hello_" := by rfl

/-- `should_parse_identifier_surrounding_with_spaces` -/
example : Gives G.ident c!"  hello  " c!""
    c!"hello" := by rfl

/-- `should_parse_identifier_preceeding_others` -/
example : Gives G.ident c!"hello  note" c!"note"
    c!"hello" := by rfl

/-- `should_parse_identifier_attached_to_symbol` -/
example : Gives G.ident c!"hello=" c!"="
    c!"hello" := by rfl

/-! ## `/repo/src/dictionary.rs` -/

/-- `should_parse_dictionary_member` -/
example : Gives G.dictionaryMember c!"required long num = 5;" c!""
    ⟨none, true, long, c!"num", some (.integer (.dec c!"5"))⟩ := by rfl

/-! ## `/repo/src/interface.rs` -/

/-- `should_parse_stringifier_member` -/
example : Gives G.stringifierMember c!"stringifier;" c!""
    ⟨none⟩ := by rfl

/-- `should_parse_stringifier_or_static` -/
example : Gives G.stringifierOrStatic c!"static" c!""
    .static := by rfl

/-- `should_parse_stringifier_or_inherit_or_static` -/
example : Gives G.stringifierOrInheritOrStatic c!"inherit" c!""
    .inherit := by rfl

/-- `should_parse_setlike_interface_member` -/
example : Gives G.setlikeInterfaceMember c!"readonly setlike<long>;" c!""
    ⟨none, true, .mk none long⟩ := by rfl

/-- `should_parse_maplike_interface_member` -/
example : Gives G.maplikeInterfaceMember c!"readonly maplike<long, short>;" c!""
    ⟨none, true, (.mk none long, .mk none short)⟩ := by rfl

/-- `should_parse_attribute_interface_member` -/
example : Gives G.attributeInterfaceMember c!"readonly attribute unsigned long width;" c!""
    ⟨none, none, true, .mk none (.single (.nonAny (.integer (.long true) false))), c!"width"⟩ := by rfl

/-- `should_parse_double_typed_iterable` -/
example : Gives G.doubleTypedIterable c!"iterable<long, long>;" c!""
    (.double none (.mk none long, .mk none long)) := by rfl

/-- `should_parse_single_typed_iterable` -/
example : Gives G.singleTypedIterable c!"iterable<long>;" c!""
    (.single none (.mk none long)) := by rfl

/-- `should_parse_double_typed_async_iterable` -/
example : Gives G.doubleTypedAsyncIterable c!"async iterable<long, long>;" c!""
    (.double none (.mk none long, .mk none long) none) := by rfl

/-- `should_parse_double_typed_async_iterable_with_args` -/
example : Gives G.doubleTypedAsyncIterable c!"async iterable<long, long>(long a);" c!""
    (.double none (.mk none long, .mk none long) (some [arg long c!"a"])) := by rfl

/-- `should_parse_single_typed_async_iterable` -/
example : Gives G.singleTypedAsyncIterable c!"async iterable<long>;" c!""
    (.single none (.mk none long) none) := by rfl

/-- `should_parse_single_typed_async_iterable_with_args` -/
example : Gives G.singleTypedAsyncIterable c!"async iterable<long>(long a);" c!""
    (.single none (.mk none long) (some [arg long c!"a"])) := by rfl

/-- `should_parse_constructor_interface_member` -/
example : Gives G.constructorInterfaceMember c!"constructor(long a);" c!""
    ⟨none, [arg long c!"a"]⟩ := by rfl

/-- `should_parse_operation_interface_member` -/
example : Gives G.operationInterfaceMember c!"undefined readString(long a, long b);" c!""
    ⟨none, none, none, .undefined, some c!"readString", [arg long c!"a", arg long c!"b"]⟩ := by rfl

/-- `should_parse_const_member` -/
example : Gives G.constMember c!"const long name = 5;" c!""
    ⟨none, .integer (.long false) false, c!"name", .integer (.dec c!"5")⟩ := by rfl

/-! ## `/repo/src/lib.rs` -/

/-- `should_parse_includes_statement` -/
example : Gives G.includesStatementDefinition c!"first includes second;" c!""
    (.includesStatement none c!"first" c!"second") := by rfl

/-- `should_parse_typedef` -/
example : Gives G.typedefDefinition c!"typedef short Short;" c!""
    (.typedef none (.mk none short) c!"Short") := by rfl

/-- `should_parse_enum` -/
example : Gives G.enumDefinition c!"enum name { \"first\", \"second\" }; " c!""
    (.enum none c!"name" [c!"first", c!"second"]) := by rfl

/-- `should_parse_dictionary` -/
example : Gives G.dictionaryDefinition c!"dictionary A { long c; long g; };" c!""
    (.dictionary none c!"A" none [⟨none, false, long, c!"c", none⟩, ⟨none, false, long, c!"g", none⟩]) := by rfl

/-- `should_parse_dictionary_inherited` -/
example : Gives G.dictionaryDefinition c!"dictionary C : B { long e; long f; };" c!""
    (.dictionary none c!"C" (some c!"B") [⟨none, false, long, c!"e", none⟩, ⟨none, false, long, c!"f", none⟩]) := by rfl

/-- `should_parse_partial_namespace` -/
example : Gives G.partialNamespaceDefinition c!"\n        partial namespace VectorUtils {\n            readonly attribute Vector unit;\n            double dotProduct(Vector x, Vector y);\n            Vector crossProduct(Vector x, Vector y);\n        };\n    " c!""
    (.partialNamespace none c!"VectorUtils" [
      .attribute ⟨none, .mk none (ref c!"Vector"), c!"unit"⟩,
      .operation ⟨none, .type double, some c!"dotProduct", [arg (ref c!"Vector") c!"x", arg (ref c!"Vector") c!"y"]⟩,
      .operation ⟨none, .type (ref c!"Vector"), some c!"crossProduct",
        [arg (ref c!"Vector") c!"x", arg (ref c!"Vector") c!"y"]⟩]) := by rfl

/-- `should_parse_partial_dictionary` -/
example : Gives G.partialDictionaryDefinition c!"partial dictionary C { long e; long f; };" c!""
    (.partialDictionary none c!"C" [⟨none, false, long, c!"e", none⟩, ⟨none, false, long, c!"f", none⟩]) := by rfl

/-- `should_parse_partial_interface_mixin` -/
example : Gives G.partialInterfaceMixinDefinition c!"\n        partial interface mixin WindowSessionStorage {\n          readonly attribute Storage sessionStorage;\n        };\n    " c!""
    (.partialInterfaceMixin none c!"WindowSessionStorage" [.attribute ⟨none, false, true, .mk none (ref c!"Storage"), c!"sessionStorage"⟩]) := by rfl

/-- `should_parse_partial_interface` -/
example : Gives G.partialInterfaceDefinition c!"\n        partial interface Window {\n          readonly attribute Storage sessionStorage;\n        };\n    " c!""
    (.partialInterface none c!"Window" [.attribute ⟨none, none, true, .mk none (ref c!"Storage"), c!"sessionStorage"⟩]) := by rfl

/-- `should_parse_namespace` -/
example : Gives G.namespaceDefinition c!"\n        namespace VectorUtils {\n          readonly attribute Vector unit;\n          double dotProduct(Vector x, Vector y);\n          Vector crossProduct(Vector x, Vector y);\n        };\n    " c!""
    (.namespace none c!"VectorUtils" [
      .attribute ⟨none, .mk none (ref c!"Vector"), c!"unit"⟩,
      .operation ⟨none, .type double, some c!"dotProduct", [arg (ref c!"Vector") c!"x", arg (ref c!"Vector") c!"y"]⟩,
      .operation ⟨none, .type (ref c!"Vector"), some c!"crossProduct",
        [arg (ref c!"Vector") c!"x", arg (ref c!"Vector") c!"y"]⟩]) := by rfl

/-- `should_parse_interface_mixin` -/
example : Gives G.interfaceMixinDefinition c!"\n        interface mixin WindowSessionStorage {\n          readonly attribute Storage sessionStorage;\n        };\n    " c!""
    (.interfaceMixin none c!"WindowSessionStorage" [.attribute ⟨none, false, true, .mk none (ref c!"Storage"), c!"sessionStorage"⟩]) := by rfl

/-- `should_parse_interface` -/
example : Gives G.interfaceDefinition c!"\n        interface Window {\n          readonly attribute Storage sessionStorage;\n        };\n    " c!""
    (.interface none c!"Window" none [.attribute ⟨none, none, true, .mk none (ref c!"Storage"), c!"sessionStorage"⟩]) := by rfl

/-- `should_parse_callback_interface` -/
example : Gives G.callbackInterfaceDefinition c!"\n        callback interface Options {\n          attribute DOMString? option1;\n          attribute DOMString? option2;\n          attribute long? option3;\n        };\n    " c!""
    (.callbackInterface none c!"Options" none [
      .attribute ⟨none, none, false, .mk none (domString true), c!"option1"⟩,
      .attribute ⟨none, none, false, .mk none (domString true), c!"option2"⟩,
      .attribute ⟨none, none, false, .mk none (.single (.nonAny (.integer (.long false) true))), c!"option3"⟩]) := by rfl

/-- `should_parse_callback` -/
example : Gives G.callbackDefinition c!"callback AsyncOperationCallback = undefined (DOMString status);" c!""
    (.callback none c!"AsyncOperationCallback" .undefined [arg (domString false) c!"status"]) := by rfl

/-- `should_parse_with_line_comments` -/
example : Gives G.callbackDefinition c!"\n        // This is a comment\n        callback AsyncOperationCallback = undefined (DOMString status);\n    " c!""
    (.callback none c!"AsyncOperationCallback" .undefined [arg (domString false) c!"status"]) := by rfl

/-- `should_parse_with_block_comments` -/
example : Gives G.callbackDefinition c!"\n        /* This is a comment */\n        callback AsyncOperationCallback = undefined (DOMString status);\n    " c!""
    (.callback none c!"AsyncOperationCallback" .undefined [arg (domString false) c!"status"]) := by rfl

/-- `should_parse_with_multiple_comments` -/
example : Gives G.callbackDefinition c!"\n        // This is a comment\n        // This is a comment\n        // This is a comment\n\n        // This is a comment\n        callback AsyncOperationCallback = undefined (DOMString status);\n    " c!""
    (.callback none c!"AsyncOperationCallback" .undefined [arg (domString false) c!"status"]) := by rfl

/-! ## `/repo/src/literal.rs` -/

/-- `should_parse_integer` -/
example : Gives G.integerLit c!"45" c!""
    (.dec c!"45") := by rfl

/-- `should_parse_integer_surrounding_with_spaces` -/
example : Gives G.integerLit c!"  123123  " c!""
    (.dec c!"123123") := by rfl

/-- `should_parse_integer_preceeding_others` -/
example : Gives G.integerLit c!"3453 string" c!"string"
    (.dec c!"3453") := by rfl

/-- `should_parse_neg_integer` -/
example : Gives G.integerLit c!"-435" c!""
    (.dec c!"-435") := by rfl

/-- `should_parse_hex_number` -/
example : Gives G.integerLit c!"0X08" c!""
    (.hex c!"0X08") := by rfl

/-- `should_parse_hex_large_number` -/
example : Gives G.integerLit c!"0xA" c!""
    (.hex c!"0xA") := by rfl

/-- `should_parse_zero` -/
example : Gives G.integerLit c!"0" c!""
    (.oct c!"0") := by rfl

/-- `should_parse_oct_number` -/
example : Gives G.integerLit c!"-07561" c!""
    (.oct c!"-07561") := by rfl

/-- `should_parse_float` -/
example : Gives G.floatLit c!"45.434" c!""
    (.value c!"45.434") := by rfl

/-- `should_parse_float_surrounding_with_spaces` -/
example : Gives G.floatLit c!"  2345.2345  " c!""
    (.value c!"2345.2345") := by rfl

/-- `should_parse_float_preceeding_others` -/
example : Gives G.floatLit c!"3453.32334 string" c!"string"
    (.value c!"3453.32334") := by rfl

/-- `should_parse_neg_float` -/
example : Gives G.floatLit c!"-435.3435" c!""
    (.value c!"-435.3435") := by rfl

/-- `should_parse_float_exp` -/
example : Gives G.floatLit c!"5.3434e23" c!""
    (.value c!"5.3434e23") := by rfl

/-- `should_parse_float_exp_with_decimal` -/
example : Gives G.floatLit c!"3e23" c!""
    (.value c!"3e23") := by rfl

/-- `should_parse_neg_infinity` -/
example : Gives G.floatLit c!"-Infinity" c!""
    .negInfinity := by rfl

/-- `should_parse_infinity` -/
example : Gives G.floatLit c!"Infinity" c!""
    .infinity := by rfl

/-- `should_parse_string` -/
example : Gives G.stringLit c!"\"this is a string\"" c!""
    c!"this is a string" := by rfl

/-- `should_parse_string_surround_with_spaces` -/
example : Gives G.stringLit c!"  \"this is a string\"  " c!""
    c!"this is a string" := by rfl

/-- `should_parse_string_followed_by_string` -/
example : Gives G.stringLit c!" \"this is first\"  \"this is second\" " c!"\"this is second\" "
    c!"this is first" := by rfl

/-- `should_parse_string_with_spaces` -/
example : Gives G.stringLit c!"  \"  this is a string  \"  " c!""
    c!"  this is a string  " := by rfl

/-- `should_parse_string_with_comment` -/
example : Gives G.stringLit c!"  \"// this is still a string\"\n     " c!""
    c!"// this is still a string" := by rfl

/-- `should_parse_string_with_multiline_comment` -/
example : Gives G.stringLit c!"  \"/*\"  \"*/\"  " c!"\"*/\"  "
    c!"/*" := by rfl

/-- `should_parse_null` -/
example : Gives (G.kw .null) c!"null" c!""
    () := by rfl

/-- `should_parse_empty_array` -/
example : Gives G.emptyArrayLit c!"[]" c!""
    () := by rfl

/-- `should_parse_bool_true` -/
example : Gives G.booleanLit c!"true" c!""
    true := by rfl

/-- `should_parse_bool_false` -/
example : Gives G.booleanLit c!"false" c!""
    false := by rfl

/-! ## `/repo/src/mixin.rs` -/

/-- `should_parse_attribute_mixin_member` -/
example : Gives G.attributeMixinMember c!"stringifier readonly attribute short name;" c!""
    ⟨none, true, true, .mk none short, c!"name"⟩ := by rfl

/-- `should_parse_operation_mixin_member` -/
example : Gives G.operationMixinMember c!"short fnName(long a);" c!""
    ⟨none, false, .type short, some c!"fnName", [arg long c!"a"]⟩ := by rfl

/-! ## `/repo/src/namespace.rs` -/

/-- `should_parse_const_member` -/
example : Gives G.constMember c!"const long name = 5;" c!""
    ⟨none, .integer (.long false) false, c!"name", .integer (.dec c!"5")⟩ := by rfl

/-- `should_parse_attribute_namespace_member` -/
example : Gives G.attributeNamespaceMember c!"readonly attribute short name;" c!""
    ⟨none, .mk none short, c!"name"⟩ := by rfl

/-- `should_parse_operation_namespace_member` -/
example : Gives G.operationNamespaceMember c!"short (long a, long b);" c!""
    ⟨none, .type short, none, [arg long c!"a", arg long c!"b"]⟩ := by rfl

/-! ## `/repo/src/types.rs` -/

/-- `should_parse_may_be_null` -/
example : Gives (G.integerType.mayBeNull Prod.mk) c!"short" c!""
    (.short false, false) := by rfl

/-- `should_parse_nullable` -/
example : Gives (G.integerType.mayBeNull Prod.mk) c!"short?" c!""
    (.short false, true) := by rfl

/-- `ReturnType::Undefined` -/
example : Gives G.returnType c!"undefined" c!""
    .undefined := by rfl

/-- `ReturnType::Type` -/
example : Gives G.returnType c!"any" c!""
    (.type (.single .any)) := by rfl

/-- `ConstType::Integer` -/
example : Gives G.constType c!"short" c!""
    (.integer (.short false) false) := by rfl

/-- `ConstType::FloatingPoint` -/
example : Gives G.constType c!"float" c!""
    (.floatingPoint (.float false) false) := by rfl

/-- `ConstType::Boolean` -/
example : Gives G.constType c!"boolean" c!""
    (.boolean false) := by rfl

/-- `ConstType::Byte` -/
example : Gives G.constType c!"byte" c!""
    (.byte false) := by rfl

/-- `ConstType::Octet` -/
example : Gives G.constType c!"octet" c!""
    (.octet false) := by rfl

/-- `ConstType::Identifier` -/
example : Gives G.constType c!"name" c!""
    (.identifier c!"name" false) := by rfl

/-- `NonAnyType::Promise` -/
example : Gives G.nonAnyType c!"Promise<long>" c!""
    (.promise (.type long)) := by rfl

/-- `NonAnyType::Integer` -/
example : Gives G.nonAnyType c!"long" c!""
    (.integer (.long false) false) := by rfl

/-- `NonAnyType::FloatingPoint` -/
example : Gives G.nonAnyType c!"float" c!""
    (.floatingPoint (.float false) false) := by rfl

/-- `NonAnyType::Boolean` -/
example : Gives G.nonAnyType c!"boolean" c!""
    (.builtin .boolean false) := by rfl

/-- `NonAnyType::Byte` -/
example : Gives G.nonAnyType c!"byte" c!""
    (.builtin .byte false) := by rfl

/-- `NonAnyType::Octet` -/
example : Gives G.nonAnyType c!"octet" c!""
    (.builtin .octet false) := by rfl

/-- `NonAnyType::ByteString` -/
example : Gives G.nonAnyType c!"ByteString" c!""
    (.builtin .byteString false) := by rfl

/-- `NonAnyType::DOMString` -/
example : Gives G.nonAnyType c!"DOMString" c!""
    (.builtin .domString false) := by rfl

/-- `NonAnyType::USVString` -/
example : Gives G.nonAnyType c!"USVString" c!""
    (.builtin .usvString false) := by rfl

/-- `NonAnyType::Sequence` -/
example : Gives G.nonAnyType c!"sequence<short>" c!""
    (.sequence short false) := by rfl

/-- `NonAnyType::Object` -/
example : Gives G.nonAnyType c!"object" c!""
    (.builtin .object false) := by rfl

/-- `NonAnyType::Symbol` -/
example : Gives G.nonAnyType c!"symbol" c!""
    (.builtin .symbol false) := by rfl

/-- `NonAnyType::Error` -/
example : Gives G.nonAnyType c!"Error" c!""
    (.builtin .error false) := by rfl

/-- `NonAnyType::ArrayBuffer` -/
example : Gives G.nonAnyType c!"ArrayBuffer" c!""
    (.builtin .arrayBuffer false) := by rfl

/-- `NonAnyType::DataView` -/
example : Gives G.nonAnyType c!"DataView" c!""
    (.builtin .dataView false) := by rfl

/-- `NonAnyType::Int8Array` -/
example : Gives G.nonAnyType c!"Int8Array" c!""
    (.builtin .int8Array false) := by rfl

/-- `NonAnyType::Int16Array` -/
example : Gives G.nonAnyType c!"Int16Array" c!""
    (.builtin .int16Array false) := by rfl

/-- `NonAnyType::Int32Array` -/
example : Gives G.nonAnyType c!"Int32Array" c!""
    (.builtin .int32Array false) := by rfl

/-- `NonAnyType::Uint8Array` -/
example : Gives G.nonAnyType c!"Uint8Array" c!""
    (.builtin .uint8Array false) := by rfl

/-- `NonAnyType::Uint16Array` -/
example : Gives G.nonAnyType c!"Uint16Array" c!""
    (.builtin .uint16Array false) := by rfl

/-- `NonAnyType::Uint32Array` -/
example : Gives G.nonAnyType c!"Uint32Array" c!""
    (.builtin .uint32Array false) := by rfl

/-- `NonAnyType::Uint8ClampedArray` -/
example : Gives G.nonAnyType c!"Uint8ClampedArray" c!""
    (.builtin .uint8ClampedArray false) := by rfl

/-- `NonAnyType::Float32Array` -/
example : Gives G.nonAnyType c!"Float32Array" c!""
    (.builtin .float32Array false) := by rfl

/-- `NonAnyType::Float64Array` -/
example : Gives G.nonAnyType c!"Float64Array" c!""
    (.builtin .float64Array false) := by rfl

/-- `NonAnyType::ArrayBufferView` -/
example : Gives G.nonAnyType c!"ArrayBufferView" c!""
    (.builtin .arrayBufferView false) := by rfl

/-- `NonAnyType::BufferSource` -/
example : Gives G.nonAnyType c!"BufferSource" c!""
    (.builtin .bufferSource false) := by rfl

/-- `NonAnyType::FrozenArrayType` -/
example : Gives G.nonAnyType c!"FrozenArray<short>" c!""
    (.frozenArray short false) := by rfl

/-- `NonAnyType::RecordType` -/
example : Gives G.nonAnyType c!"record<DOMString, short>" c!""
    (.record .dom short false) := by rfl

/-- `NonAnyType::Identifier` -/
example : Gives G.nonAnyType c!"mango" c!""
    (.identifier c!"mango" false) := by rfl

/-- `UnionMemberType::Single` -/
example : Gives G.unionMemberType c!"byte" c!""
    (.single none (.builtin .byte false)) := by rfl

/-- `UnionMemberType::Union` -/
example : Gives G.unionMemberType c!"([Clamp] unsigned long or byte)" c!""
    (.union [.single (some [.noArgs c!"Clamp"]) (.integer (.long true) false), .single none (.builtin .byte false)] false) := by rfl

/-- `RecordKeyType::DOM` -/
example : Gives G.recordKeyType c!"DOMString" c!""
    .dom := by rfl

/-- `RecordKeyType::USV` -/
example : Gives G.recordKeyType c!"USVString" c!""
    .usv := by rfl

/-- `RecordKeyType::Byte` -/
example : Gives G.recordKeyType c!"ByteString" c!""
    .byte := by rfl

/-- `should_parse_record_type` -/
example : Gives G.recordType c!"record<DOMString, short>" c!""
    (.dom, short) := by rfl

/-- `should_parse_record_type_alt_types` -/
example : Gives G.recordType c!"record<u64, short>" c!""
    (.nonAny (.identifier c!"u64" false), short) := by rfl

/-- `should_parse_double_type` -/
example : Gives G.doubleType c!"double" c!""
    (.double false) := by rfl

/-- `should_parse_float_type` -/
example : Gives G.floatType c!"float" c!""
    (.float false) := by rfl

/-- `FloatingPointType::Float` -/
example : Gives G.floatingPointType c!"float" c!""
    (.float false) := by rfl

/-- `FloatingPointType::Double` -/
example : Gives G.floatingPointType c!"double" c!""
    (.double false) := by rfl

/-- `should_parse_long_long_type` -/
example : Gives G.longLongType c!"long long" c!""
    (.longLong false) := by rfl

/-- `should_parse_long_type` -/
example : Gives G.longType c!"long" c!""
    (.long false) := by rfl

/-- `should_parse_short_type` -/
example : Gives G.shortType c!"short" c!""
    (.short false) := by rfl

/-- `IntegerType::Short` -/
example : Gives G.integerType c!"short" c!""
    (.short false) := by rfl

/-- `IntegerType::Long` -/
example : Gives G.integerType c!"long" c!""
    (.long false) := by rfl

/-- `IntegerType::LongLong` -/
example : Gives G.integerType c!"long long" c!""
    (.longLong false) := by rfl

/-- `should_parse_promise_type` -/
example : Gives G.promiseType c!"Promise<short>" c!""
    (.promise (.type short)) := by rfl

/-- `should_parse_frozen_array_type` -/
example : Gives G.frozenArrayType c!"FrozenArray<short>" c!""
    short := by rfl

/-- `should_parse_sequence_type` -/
example : Gives G.sequenceType c!"sequence<short>" c!""
    short := by rfl

/-- `SingleType::Any` -/
example : Gives G.singleType c!"any" c!""
    .any := by rfl

/-- `SingleType::NonAny` -/
example : Gives G.singleType c!"Promise<short>" c!""
    (.nonAny (.promise (.type short))) := by rfl

/-- `Type::Single` -/
example : Gives G.type c!"short" c!""
    short := by rfl

/-- `Type::Union` -/
example : Gives G.type c!"(short or float)" c!""
    (.union [.single none (.integer (.short false) false), .single none (.floatingPoint (.float false) false)] false) := by rfl

/-- `should_parse_attributed_type` -/
example : Gives G.attributedType c!"[Named] short" c!""
    (.mk (some [.noArgs c!"Named"]) short) := by rfl

/-- `should_parse_type_as_identifier` -/
example : Gives G.type c!"DOMStringMap" c!""
    (ref c!"DOMStringMap") := by rfl

/-- `should_parse_union_member_type_attributed_union` -/
example : Gives G.unionMemberType c!"([Clamp] byte or [Named] byte)" c!""
    (.union [.single (some [.noArgs c!"Clamp"]) (.builtin .byte false),
      .single (some [.noArgs c!"Named"]) (.builtin .byte false)] false) := by rfl

/-! ## `/repo/src/term.rs` -/

/-- The five texts `generate_tests!` makes of each terminal, with their remainders. -/
def variants (w : Str) : List (Str × Str) :=
  [(w, []), (c!"  " ++ w, []), (w ++ c!"  ", []), (c!"  " ++ w ++ c!"  ", []), (w ++ c!"  anything", c!"anything")]

set_option maxRecDepth 100000 in
example : ∀ p : Punct, ∀ v ∈ variants p.text, remainder ((G.punct p).parse v.1) = some v.2 := by
  intro p; cases p <;> decide +kernel

set_option maxRecDepth 100000 in
example : ∀ k : Kw, ∀ v ∈ variants k.text, remainder ((G.kw k).parse v.1) = some v.2 := by
  intro k; cases k <;> decide +kernel

/-! ## `/repo/tests` -/

/-- `interface_constructor` -/
example : weedleParse c!"interface InterfaceWithConstructor {\n  [Throws]\n  constructor(long a);\n};\n" =
    .ok [.interface none c!"InterfaceWithConstructor" none
      [.constructor ⟨some [.noArgs c!"Throws"], [arg long c!"a"]⟩]] := by rfl

end Verif.Conformance
