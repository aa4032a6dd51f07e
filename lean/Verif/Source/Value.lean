import Verif.Model.Ast
import Verif.Model.Lex
import Verif.Source.Meaning

/-!
# The Rust values of the AST

The AST of the model (`Verif/Model/Ast.lean`) leaves out what is the same in all values of a type. These
functions put it back: for each AST the Rust value with all its fields.
-/

namespace Verif.Source

/-- The struct that `generate_terms!` (`/repo/src/term.rs:55-106`) makes for a symbol -/
def punctType : Punct → Str
  | .openParen => c!"OpenParen"
  | .closeParen => c!"CloseParen"
  | .openBracket => c!"OpenBracket"
  | .closeBracket => c!"CloseBracket"
  | .openBrace => c!"OpenBrace"
  | .closeBrace => c!"CloseBrace"
  | .comma => c!"Comma"
  | .minus => c!"Minus"
  | .dot => c!"Dot"
  | .ellipsis => c!"Ellipsis"
  | .colon => c!"Colon"
  | .semiColon => c!"SemiColon"
  | .lessThan => c!"LessThan"
  | .assign => c!"Assign"
  | .greaterThan => c!"GreaterThan"
  | .qMark => c!"QMark"
  | .asterisk => c!"Asterisk"

/-- The struct that `generate_terms_for_names!` (`/repo/src/term.rs:108-312`) makes for a keyword -/
def kwType : Kw → Str
  | .or => c!"Or"
  | .optional => c!"Optional"
  | .async => c!"Async"
  | .attribute => c!"Attribute"
  | .callback => c!"Callback"
  | .const => c!"Const"
  | .deleter => c!"Deleter"
  | .dictionary => c!"Dictionary"
  | .enum => c!"Enum"
  | .getter => c!"Getter"
  | .includes => c!"Includes"
  | .inherit => c!"Inherit"
  | .interface => c!"Interface"
  | .iterable => c!"Iterable"
  | .maplike => c!"Maplike"
  | .namespace => c!"Namespace"
  | .partial => c!"Partial"
  | .required => c!"Required"
  | .setlike => c!"Setlike"
  | .setter => c!"Setter"
  | .static => c!"Static"
  | .stringifier => c!"Stringifier"
  | .typedef => c!"Typedef"
  | .unrestricted => c!"Unrestricted"
  | .symbol => c!"Symbol"
  | .negInfinity => c!"NegInfinity"
  | .byteString => c!"ByteString"
  | .domString => c!"DOMString"
  | .frozenArray => c!"FrozenArray"
  | .infinity => c!"Infinity"
  | .nan => c!"NaN"
  | .usvString => c!"USVString"
  | .any => c!"Any"
  | .boolean => c!"Boolean"
  | .byte => c!"Byte"
  | .double => c!"Double"
  | .false => c!"False"
  | .float => c!"Float"
  | .long => c!"Long"
  | .null => c!"Null"
  | .object => c!"Object"
  | .octet => c!"Octet"
  | .sequence => c!"Sequence"
  | .short => c!"Short"
  | .true => c!"True"
  | .unsigned => c!"Unsigned"
  | .undefined => c!"Undefined"
  | .record => c!"Record"
  | .arrayBuffer => c!"ArrayBuffer"
  | .dataView => c!"DataView"
  | .int8Array => c!"Int8Array"
  | .int16Array => c!"Int16Array"
  | .int32Array => c!"Int32Array"
  | .uint8Array => c!"Uint8Array"
  | .uint16Array => c!"Uint16Array"
  | .uint32Array => c!"Uint32Array"
  | .uint8ClampedArray => c!"Uint8ClampedArray"
  | .float32Array => c!"Float32Array"
  | .float64Array => c!"Float64Array"
  | .arrayBufferView => c!"ArrayBufferView"
  | .bufferSource => c!"BufferSource"
  | .promise => c!"Promise"
  | .error => c!"Error"
  | .readOnly => c!"ReadOnly"
  | .mixin => c!"Mixin"
  | .implements => c!"Implements"
  | .legacyCaller => c!"LegacyCaller"
  | .constructor => c!"Constructor"

/-- The unit struct of a symbol, `/repo/src/term.rs:8-13`. -/
def punctVal (p : Punct) : Val := .token (punctType p)

/-- The unit struct of a keyword, `/repo/src/term.rs:45-50`. -/
def kwVal (k : Kw) : Val := .token (kwType k)

section
variable {α β : Type}

/-- `Option<T>`, `/repo/src/common.rs:5-7`. -/
def optVal (f : α → Val) : Option α → Val
  | none => .none
  | some a => .some (f a)

/-- `Option<term!(k)>`. `/repo/src/common.rs:5-7`, for instance in `/repo/src/types.rs:86`. -/
def flagVal (v : Val) (b : Bool) : Val := if b then .some v else .none

/-- `/repo/src/common.rs:31-35` -/
def parenVal (v : Val) : Val := .struct c!"Parenthesized"
  [(c!"open_paren", punctVal .openParen), (c!"body", v), (c!"close_paren", punctVal .closeParen)]

/-- `/repo/src/common.rs:39-43` -/
def bracketVal (v : Val) : Val := .struct c!"Bracketed"
  [(c!"open_bracket", punctVal .openBracket), (c!"body", v), (c!"close_bracket", punctVal .closeBracket)]

/-- `/repo/src/common.rs:47-51` -/
def braceVal (v : Val) : Val := .struct c!"Braced"
  [(c!"open_brace", punctVal .openBrace), (c!"body", v), (c!"close_brace", punctVal .closeBrace)]

/-- `/repo/src/common.rs:55-59` -/
def genericsVal (v : Val) : Val := .struct c!"Generics"
  [(c!"open_angle", punctVal .lessThan), (c!"body", v), (c!"close_angle", punctVal .greaterThan)]

/-- `/repo/src/common.rs:62-65` -/
def punctuatedVal (sep : Val) (vs : List Val) : Val := .struct c!"Punctuated"
  [(c!"list", .list vs), (c!"separator", sep)]

/-- `/repo/src/common.rs:68-74` -/
def punctuatedNonEmptyVal (sep : Val) (vs : List Val) : Val := .struct c!"PunctuatedNonEmpty"
  [(c!"list", .list vs), (c!"separator", sep)]

/-- `/repo/src/types.rs:69-72` -/
def nullVal (v : Val) (q : Bool) : Val := .struct c!"MayBeNull"
  [(c!"type_", v), (c!"q_mark", flagVal (punctVal .qMark) q)]

/-- `/repo/src/common.rs:80` -/
def identVal (s : Str) : Val := .newtype c!"Identifier" (.str s)

/-! ## `/repo/src/literal.rs` -/

/-- `DecLit`, `/repo/src/literal.rs:7-14`. -/
def decVal (s : Str) : Val := .newtype c!"DecLit" (.str s)
/-- `HexLit`, `/repo/src/literal.rs:17-25`. -/
def hexVal (s : Str) : Val := .newtype c!"HexLit" (.str s)
/-- `OctLit`, `/repo/src/literal.rs:28-35`. -/
def octVal (s : Str) : Val := .newtype c!"OctLit" (.str s)
/-- `StringLit`, `/repo/src/literal.rs:42-49`. -/
def stringVal (s : Str) : Val := .newtype c!"StringLit" (.str s)
/-- `FloatValueLit`, `/repo/src/literal.rs:96-138`. -/
def floatValueVal (s : Str) : Val := .newtype c!"FloatValueLit" (.str s)
/-- `BooleanLit`, `/repo/src/literal.rs:84-89`. -/
def booleanVal (b : Bool) : Val := .newtype c!"BooleanLit" (.bool b)

/-- `IntegerLit`, `/repo/src/literal.rs:4-36`. -/
def integerLitVal : IntegerLit → Val
  | .dec s => .variant c!"IntegerLit" c!"Dec" (decVal s)
  | .hex s => .variant c!"IntegerLit" c!"Hex" (hexVal s)
  | .oct s => .variant c!"IntegerLit" c!"Oct" (octVal s)

/-- `FloatLit`, `/repo/src/literal.rs:93-142`. -/
def floatLitVal : FloatLit → Val
  | .value s => .variant c!"FloatLit" c!"Value" (floatValueVal s)
  | .negInfinity => .variant c!"FloatLit" c!"NegInfinity" (kwVal .negInfinity)
  | .infinity => .variant c!"FloatLit" c!"Infinity" (kwVal .infinity)
  | .nan => .variant c!"FloatLit" c!"NaN" (kwVal .nan)

/-- `EmptyArrayLit`, `/repo/src/literal.rs:57-60`. -/
def emptyArrayVal : Val := .struct c!"EmptyArrayLit"
  [(c!"open_bracket", punctVal .openBracket), (c!"close_bracket", punctVal .closeBracket)]

/-- `EmptyDictionaryLit`, `/repo/src/literal.rs:63-66`. -/
def emptyDictionaryVal : Val := .struct c!"EmptyDictionaryLit"
  [(c!"open_brace", punctVal .openBrace), (c!"close_brace", punctVal .closeBrace)]

/-- `DefaultValue`, `/repo/src/literal.rs:53-71`. -/
def defaultValueVal : DefaultValue → Val
  | .boolean b => .variant c!"DefaultValue" c!"Boolean" (booleanVal b)
  | .emptyArray => .variant c!"DefaultValue" c!"EmptyArray" emptyArrayVal
  | .emptyDictionary => .variant c!"DefaultValue" c!"EmptyDictionary" emptyDictionaryVal
  | .float f => .variant c!"DefaultValue" c!"Float" (floatLitVal f)
  | .integer i => .variant c!"DefaultValue" c!"Integer" (integerLitVal i)
  | .null => .variant c!"DefaultValue" c!"Null" (kwVal .null)
  | .string s => .variant c!"DefaultValue" c!"String" (stringVal s)

/-- `ConstValue`, `/repo/src/literal.rs:75-80`. -/
def constValueVal : ConstValue → Val
  | .boolean b => .variant c!"ConstValue" c!"Boolean" (booleanVal b)
  | .float f => .variant c!"ConstValue" c!"Float" (floatLitVal f)
  | .integer i => .variant c!"ConstValue" c!"Integer" (integerLitVal i)
  | .null => .variant c!"ConstValue" c!"Null" (kwVal .null)

/-- `/repo/src/common.rs:96-99` -/
def defaultVal (d : DefaultValue) : Val := .struct c!"Default"
  [(c!"assign", punctVal .assign), (c!"value", defaultValueVal d)]

/-! ## `/repo/src/types.rs`, `/repo/src/attribute.rs`, `/repo/src/argument.rs` -/

/-- `IntegerType`, `/repo/src/types.rs:82-101`. -/
def integerTypeVal : IntegerType → Val
  | .longLong u => .variant c!"IntegerType" c!"LongLong" (.struct c!"LongLongType"
      [(c!"unsigned", flagVal (kwVal .unsigned) u), (c!"long_long", .pair (kwVal .long) (kwVal .long))])
  | .long u => .variant c!"IntegerType" c!"Long" (.struct c!"LongType"
      [(c!"unsigned", flagVal (kwVal .unsigned) u), (c!"long", kwVal .long)])
  | .short u => .variant c!"IntegerType" c!"Short" (.struct c!"ShortType"
      [(c!"unsigned", flagVal (kwVal .unsigned) u), (c!"short", kwVal .short)])

/-- `FloatingPointType`, `/repo/src/types.rs:105-118`. -/
def floatingPointTypeVal : FloatingPointType → Val
  | .float u => .variant c!"FloatingPointType" c!"Float" (.struct c!"FloatType"
      [(c!"unrestricted", flagVal (kwVal .unrestricted) u), (c!"float", kwVal .float)])
  | .double u => .variant c!"FloatingPointType" c!"Double" (.struct c!"DoubleType"
      [(c!"unrestricted", flagVal (kwVal .unrestricted) u), (c!"double", kwVal .double)])

/-- The name of the variant of `NonAnyType`, and the struct of its keyword. `/repo/src/types.rs:25-30,32-47` -/
def builtinName : Builtin → Str
  | .boolean => c!"Boolean"
  | .byte => c!"Byte"
  | .octet => c!"Octet"
  | .byteString => c!"ByteString"
  | .domString => c!"DOMString"
  | .usvString => c!"USVString"
  | .object => c!"Object"
  | .symbol => c!"Symbol"
  | .error => c!"Error"
  | .arrayBuffer => c!"ArrayBuffer"
  | .dataView => c!"DataView"
  | .int8Array => c!"Int8Array"
  | .int16Array => c!"Int16Array"
  | .int32Array => c!"Int32Array"
  | .uint8Array => c!"Uint8Array"
  | .uint16Array => c!"Uint16Array"
  | .uint32Array => c!"Uint32Array"
  | .uint8ClampedArray => c!"Uint8ClampedArray"
  | .float32Array => c!"Float32Array"
  | .float64Array => c!"Float64Array"
  | .arrayBufferView => c!"ArrayBufferView"
  | .bufferSource => c!"BufferSource"

/-- `IdentifierOrString`, `/repo/src/attribute.rs:62-65`. -/
def identifierOrStringVal : IdentifierOrString → Val
  | .identifier s => .variant c!"IdentifierOrString" c!"Identifier" (identVal s)
  | .string s => .variant c!"IdentifierOrString" c!"String" (stringVal s)

mutual

/-- `Type`, `/repo/src/types.rs:11-18`. -/
def typeVal : Ty → Val
  | .single t => .variant c!"Type" c!"Single" (singleTypeVal t)
  | .union ms q => .variant c!"Type" c!"Union"
      (nullVal (parenVal (punctuatedVal (kwVal .or) (unionMemberVals ms))) q)

/-- `SingleType`, `/repo/src/types.rs:13-16`. -/
def singleTypeVal : SingleType → Val
  | .any => .variant c!"SingleType" c!"Any" (kwVal .any)
  | .nonAny t => .variant c!"SingleType" c!"NonAny" (nonAnyTypeVal t)

/-- `NonAnyType`, `/repo/src/types.rs:21-51`. -/
def nonAnyTypeVal : NonAnyType → Val
  | .promise r => .variant c!"NonAnyType" c!"Promise" (.struct c!"PromiseType"
      [(c!"promise", kwVal .promise), (c!"generics", genericsVal (.box (returnTypeVal r)))])
  | .integer t q => .variant c!"NonAnyType" c!"Integer" (nullVal (integerTypeVal t) q)
  | .floatingPoint t q => .variant c!"NonAnyType" c!"FloatingPoint" (nullVal (floatingPointTypeVal t) q)
  | .builtin b q => .variant c!"NonAnyType" (builtinName b) (nullVal (.token (builtinName b)) q)
  | .sequence t q => .variant c!"NonAnyType" c!"Sequence" (nullVal (.struct c!"SequenceType"
      [(c!"sequence", kwVal .sequence), (c!"generics", genericsVal (.box (typeVal t)))]) q)
  | .frozenArray t q => .variant c!"NonAnyType" c!"FrozenArrayType" (nullVal (.struct c!"FrozenArrayType"
      [(c!"frozen_array", kwVal .frozenArray), (c!"generics", genericsVal (.box (typeVal t)))]) q)
  | .record k v q => .variant c!"NonAnyType" c!"RecordType" (nullVal (.struct c!"RecordType"
      [(c!"record", kwVal .record),
       (c!"generics", genericsVal (.triple (.box (recordKeyTypeVal k)) (punctVal .comma) (.box (typeVal v))))]) q)
  | .identifier s q => .variant c!"NonAnyType" c!"Identifier" (nullVal (identVal s) q)

/-- `RecordKeyType`, `/repo/src/types.rs:127-132`. -/
def recordKeyTypeVal : RecordKeyType → Val
  | .byte => .variant c!"RecordKeyType" c!"Byte" (kwVal .byteString)
  | .dom => .variant c!"RecordKeyType" c!"DOM" (kwVal .domString)
  | .usv => .variant c!"RecordKeyType" c!"USV" (kwVal .usvString)
  | .nonAny t => .variant c!"RecordKeyType" c!"NonAny" (nonAnyTypeVal t)

/-- `UnionMemberType`, `/repo/src/types.rs:135-138`. -/
def unionMemberVal : UnionMember → Val
  | .single as t => .variant c!"UnionMemberType" c!"Single" (.struct c!"AttributedNonAnyType"
      [(c!"attributes", attrsVal as), (c!"type_", nonAnyTypeVal t)])
  | .union ms q => .variant c!"UnionMemberType" c!"Union"
      (nullVal (parenVal (punctuatedVal (kwVal .or) (unionMemberVals ms))) q)

/-- The list of `UnionType`, `/repo/src/types.rs:7`. -/
def unionMemberVals : List UnionMember → List Val
  | [] => []
  | m :: ms => unionMemberVal m :: unionMemberVals ms

/-- `ReturnType`, `/repo/src/types.rs:151-154`. -/
def returnTypeVal : ReturnType → Val
  | .undefined => .variant c!"ReturnType" c!"Undefined" (kwVal .undefined)
  | .type t => .variant c!"ReturnType" c!"Type" (typeVal t)

/-- `ExtendedAttribute`, `/repo/src/attribute.rs:13-58`. -/
def extAttrVal : ExtAttr → Val
  | .argList i args => .variant c!"ExtendedAttribute" c!"ArgList" (.struct c!"ExtendedAttributeArgList"
      [(c!"identifier", identVal i),
       (c!"args", parenVal (punctuatedVal (punctVal .comma) (argumentVals args)))])
  | .namedArgList l r args => .variant c!"ExtendedAttribute" c!"NamedArgList" (.struct c!"ExtendedAttributeNamedArgList"
      [(c!"lhs_identifier", identVal l), (c!"assign", punctVal .assign), (c!"rhs_identifier", identVal r),
       (c!"args", parenVal (punctuatedVal (punctVal .comma) (argumentVals args)))])
  | .identList i l => .variant c!"ExtendedAttribute" c!"IdentList" (.struct c!"ExtendedAttributeIdentList"
      [(c!"identifier", identVal i), (c!"assign", punctVal .assign),
       (c!"list", parenVal (punctuatedVal (punctVal .comma) (l.map identVal)))])
  | .ident l r => .variant c!"ExtendedAttribute" c!"Ident" (.struct c!"ExtendedAttributeIdent"
      [(c!"lhs_identifier", identVal l), (c!"assign", punctVal .assign), (c!"rhs", identifierOrStringVal r)])
  | .wildcard l => .variant c!"ExtendedAttribute" c!"Wildcard" (.struct c!"ExtendedAttributeWildCard"
      [(c!"lhs_identifier", identVal l), (c!"assign", punctVal .assign), (c!"rhs", punctVal .asterisk)])
  | .noArgs i => .variant c!"ExtendedAttribute" c!"NoArgs" (.newtype c!"ExtendedAttributeNoArgs" (identVal i))

/-- The list of `ExtendedAttributeList`, `/repo/src/attribute.rs:6`. -/
def extAttrVals : List ExtAttr → List Val
  | [] => []
  | a :: as => extAttrVal a :: extAttrVals as

/-- `Option<ExtendedAttributeList<'a>>`. `/repo/src/attribute.rs:6`, for instance in `/repo/src/lib.rs:119`. -/
def attrsVal : Option (List ExtAttr) → Val
  | none => .none
  | some as => .some (bracketVal (punctuatedVal (punctVal .comma) (extAttrVals as)))

/-- `AttributedType`, `/repo/src/types.rs:157-160`. -/
def attributedTypeVal : AttributedType → Val
  | .mk as t => .struct c!"AttributedType" [(c!"attributes", attrsVal as), (c!"type_", typeVal t)]

/-- `Argument`, `/repo/src/argument.rs:10-31`. -/
def argumentVal : Argument → Val
  | .single as o t i d => .variant c!"Argument" c!"Single" (.struct c!"SingleArgument"
      [(c!"attributes", attrsVal as), (c!"optional", flagVal (kwVal .optional) o), (c!"type_", attributedTypeVal t),
       (c!"identifier", identVal i), (c!"default", optVal defaultVal d)])
  | .variadic as t i => .variant c!"Argument" c!"Variadic" (.struct c!"VariadicArgument"
      [(c!"attributes", attrsVal as), (c!"type_", typeVal t), (c!"ellipsis", punctVal .ellipsis),
       (c!"identifier", identVal i)])

/-- `ArgumentList`, `/repo/src/argument.rs:6`. -/
def argumentVals : List Argument → List Val
  | [] => []
  | a :: as => argumentVal a :: argumentVals as

end

/-- `Parenthesized<ArgumentList<'a>>`. For instance `/repo/src/interface.rs:46`. -/
def argsVal (as : List Argument) : Val := parenVal (punctuatedVal (punctVal .comma) (argumentVals as))

/-- `ConstType`, `/repo/src/types.rs:141-148`. -/
def constTypeVal : ConstType → Val
  | .integer t q => .variant c!"ConstType" c!"Integer" (nullVal (integerTypeVal t) q)
  | .floatingPoint t q => .variant c!"ConstType" c!"FloatingPoint" (nullVal (floatingPointTypeVal t) q)
  | .boolean q => .variant c!"ConstType" c!"Boolean" (nullVal (kwVal .boolean) q)
  | .byte q => .variant c!"ConstType" c!"Byte" (nullVal (kwVal .byte) q)
  | .octet q => .variant c!"ConstType" c!"Octet" (nullVal (kwVal .octet) q)
  | .identifier s q => .variant c!"ConstType" c!"Identifier" (nullVal (identVal s) q)

/-- `AttributedType, term!(,), AttributedType`. `/repo/src/interface.rs:74,92,102` -/
def attributedTypePairVal (p : AttributedType × AttributedType) : Val :=
  .triple (attributedTypeVal p.1) (punctVal .comma) (attributedTypeVal p.2)

/-! ## `/repo/src/interface.rs` -/

/-- `Inheritance`, `/repo/src/interface.rs:13-16`. -/
def inheritanceVal (i : Str) : Val := .struct c!"Inheritance"
  [(c!"colon", punctVal .colon), (c!"identifier", identVal i)]

/-- `ConstMember`, and `ConstNamespaceMember` (`/repo/src/namespace.rs:14-22`) -/
def constVal (name : Str) (m : ConstMember) : Val := .struct name
  [(c!"attributes", attrsVal m.attributes), (c!"const_", kwVal .const), (c!"const_type", constTypeVal m.constType),
   (c!"identifier", identVal m.identifier), (c!"assign", punctVal .assign),
   (c!"const_value", constValueVal m.constValue), (c!"semi_colon", punctVal .semiColon)]

/-- `Special`, `/repo/src/interface.rs:123-128`. -/
def specialVal : Special → Val
  | .getter => .variant c!"Special" c!"Getter" (kwVal .getter)
  | .setter => .variant c!"Special" c!"Setter" (kwVal .setter)
  | .deleter => .variant c!"Special" c!"Deleter" (kwVal .deleter)
  | .legacyCaller => .variant c!"Special" c!"LegacyCaller" (kwVal .legacyCaller)

/-- `StringifierOrInheritOrStatic`, `/repo/src/interface.rs:132-136`. -/
def stringifierOrInheritOrStaticVal : StringifierOrInheritOrStatic → Val
  | .stringifier => .variant c!"StringifierOrInheritOrStatic" c!"Stringifier" (kwVal .stringifier)
  | .inherit => .variant c!"StringifierOrInheritOrStatic" c!"Inherit" (kwVal .inherit)
  | .static => .variant c!"StringifierOrInheritOrStatic" c!"Static" (kwVal .static)

/-- `StringifierOrStatic`, `/repo/src/interface.rs:140-143`. -/
def stringifierOrStaticVal : StringifierOrStatic → Val
  | .stringifier => .variant c!"StringifierOrStatic" c!"Stringifier" (kwVal .stringifier)
  | .static => .variant c!"StringifierOrStatic" c!"Static" (kwVal .static)

/-- `AttributeInterfaceMember`, `/repo/src/interface.rs:31-39`. -/
def attributeInterfaceMemberVal (m : AttributeInterfaceMember) : Val := .struct c!"AttributeInterfaceMember"
  [(c!"attributes", attrsVal m.attributes), (c!"modifier", optVal stringifierOrInheritOrStaticVal m.modifier),
   (c!"readonly", flagVal (kwVal .readOnly) m.readonly), (c!"attribute", kwVal .attribute),
   (c!"type_", attributedTypeVal m.type_), (c!"identifier", identVal m.identifier),
   (c!"semi_colon", punctVal .semiColon)]

/-- `ConstructorInterfaceMember`, `/repo/src/interface.rs:43-48`. -/
def constructorInterfaceMemberVal (m : ConstructorInterfaceMember) : Val := .struct c!"ConstructorInterfaceMember"
  [(c!"attributes", attrsVal m.attributes), (c!"constructor", kwVal .constructor), (c!"args", argsVal m.args),
   (c!"semi_colon", punctVal .semiColon)]

/-- `OperationInterfaceMember`, `/repo/src/interface.rs:52-60`. -/
def operationInterfaceMemberVal (m : OperationInterfaceMember) : Val := .struct c!"OperationInterfaceMember"
  [(c!"attributes", attrsVal m.attributes), (c!"modifier", optVal stringifierOrStaticVal m.modifier),
   (c!"special", optVal specialVal m.special), (c!"return_type", returnTypeVal m.returnType),
   (c!"identifier", optVal identVal m.identifier), (c!"args", argsVal m.args), (c!"semi_colon", punctVal .semiColon)]

/-- `IterableInterfaceMember`, `/repo/src/interface.rs:62-77`. -/
def iterableInterfaceMemberVal : IterableInterfaceMember → Val
  | .single as g => .variant c!"IterableInterfaceMember" c!"Single" (.struct c!"SingleTypedIterable"
      [(c!"attributes", attrsVal as), (c!"iterable", kwVal .iterable),
       (c!"generics", genericsVal (attributedTypeVal g)), (c!"semi_colon", punctVal .semiColon)])
  | .double as g => .variant c!"IterableInterfaceMember" c!"Double" (.struct c!"DoubleTypedIterable"
      [(c!"attributes", attrsVal as), (c!"iterable", kwVal .iterable),
       (c!"generics", genericsVal (attributedTypePairVal g)), (c!"semi_colon", punctVal .semiColon)])

/-- `AsyncIterableInterfaceMember`, `/repo/src/interface.rs:79-96`. -/
def asyncIterableInterfaceMemberVal : AsyncIterableInterfaceMember → Val
  | .single as g args => .variant c!"AsyncIterableInterfaceMember" c!"Single" (.struct c!"SingleTypedAsyncIterable"
      [(c!"attributes", attrsVal as), (c!"async_iterable", .pair (kwVal .async) (kwVal .iterable)),
       (c!"generics", genericsVal (attributedTypeVal g)), (c!"args", optVal argsVal args),
       (c!"semi_colon", punctVal .semiColon)])
  | .double as g args => .variant c!"AsyncIterableInterfaceMember" c!"Double" (.struct c!"DoubleTypedAsyncIterable"
      [(c!"attributes", attrsVal as), (c!"async_iterable", .pair (kwVal .async) (kwVal .iterable)),
       (c!"generics", genericsVal (attributedTypePairVal g)), (c!"args", optVal argsVal args),
       (c!"semi_colon", punctVal .semiColon)])

/-- `MaplikeInterfaceMember`, `/repo/src/interface.rs:98-104`. -/
def maplikeInterfaceMemberVal (m : MaplikeInterfaceMember) : Val := .struct c!"MaplikeInterfaceMember"
  [(c!"attributes", attrsVal m.attributes), (c!"readonly", flagVal (kwVal .readOnly) m.readonly),
   (c!"maplike", kwVal .maplike), (c!"generics", genericsVal (attributedTypePairVal m.generics)),
   (c!"semi_colon", punctVal .semiColon)]

/-- `SetlikeInterfaceMember`, `/repo/src/interface.rs:105-111`. -/
def setlikeInterfaceMemberVal (m : SetlikeInterfaceMember) : Val := .struct c!"SetlikeInterfaceMember"
  [(c!"attributes", attrsVal m.attributes), (c!"readonly", flagVal (kwVal .readOnly) m.readonly),
   (c!"setlike", kwVal .setlike), (c!"generics", genericsVal (attributedTypeVal m.generics)),
   (c!"semi_colon", punctVal .semiColon)]

/-- `StringifierMember`, `/repo/src/interface.rs:114-118`. -/
def stringifierMemberVal (m : StringifierMember) : Val := .struct c!"StringifierMember"
  [(c!"attributes", attrsVal m.attributes), (c!"stringifier", kwVal .stringifier),
   (c!"semi_colon", punctVal .semiColon)]

/-- `InterfaceMember`, `/repo/src/interface.rs:19-119`. -/
def interfaceMemberVal : InterfaceMember → Val
  | .const m => .variant c!"InterfaceMember" c!"Const" (constVal c!"ConstMember" m)
  | .attribute m => .variant c!"InterfaceMember" c!"Attribute" (attributeInterfaceMemberVal m)
  | .constructor m => .variant c!"InterfaceMember" c!"Constructor" (constructorInterfaceMemberVal m)
  | .operation m => .variant c!"InterfaceMember" c!"Operation" (operationInterfaceMemberVal m)
  | .iterable m => .variant c!"InterfaceMember" c!"Iterable" (iterableInterfaceMemberVal m)
  | .asyncIterable m => .variant c!"InterfaceMember" c!"AsyncIterable" (asyncIterableInterfaceMemberVal m)
  | .maplike m => .variant c!"InterfaceMember" c!"Maplike" (maplikeInterfaceMemberVal m)
  | .setlike m => .variant c!"InterfaceMember" c!"Setlike" (setlikeInterfaceMemberVal m)
  | .stringifier m => .variant c!"InterfaceMember" c!"Stringifier" (stringifierMemberVal m)

/-! ## `/repo/src/mixin.rs` -/

def operationMixinMemberVal (m : OperationMixinMember) : Val := .struct c!"OperationMixinMember"
  [(c!"attributes", attrsVal m.attributes), (c!"stringifier", flagVal (kwVal .stringifier) m.stringifier),
   (c!"return_type", returnTypeVal m.returnType), (c!"identifier", optVal identVal m.identifier),
   (c!"args", argsVal m.args), (c!"semi_colon", punctVal .semiColon)]

/-- `AttributeMixinMember`, `/repo/src/mixin.rs:26-34`. -/
def attributeMixinMemberVal (m : AttributeMixinMember) : Val := .struct c!"AttributeMixinMember"
  [(c!"attributes", attrsVal m.attributes), (c!"stringifier", flagVal (kwVal .stringifier) m.stringifier),
   (c!"readonly", flagVal (kwVal .readOnly) m.readonly), (c!"attribute", kwVal .attribute),
   (c!"type_", attributedTypeVal m.type_), (c!"identifier", identVal m.identifier),
   (c!"semi_colon", punctVal .semiColon)]

/-- `MixinMember`, `/repo/src/mixin.rs:12-36`. -/
def mixinMemberVal : MixinMember → Val
  | .const m => .variant c!"MixinMember" c!"Const" (constVal c!"ConstMember" m)
  | .operation m => .variant c!"MixinMember" c!"Operation" (operationMixinMemberVal m)
  | .attribute m => .variant c!"MixinMember" c!"Attribute" (attributeMixinMemberVal m)
  | .stringifier m => .variant c!"MixinMember" c!"Stringifier" (stringifierMemberVal m)

/-! ## `/repo/src/namespace.rs` -/

def operationNamespaceMemberVal (m : OperationNamespaceMember) : Val := .struct c!"OperationNamespaceMember"
  [(c!"attributes", attrsVal m.attributes), (c!"return_type", returnTypeVal m.returnType),
   (c!"identifier", optVal identVal m.identifier), (c!"args", argsVal m.args), (c!"semi_colon", punctVal .semiColon)]

/-- `AttributeNamespaceMember`, `/repo/src/namespace.rs:34-41`. -/
def attributeNamespaceMemberVal (m : AttributeNamespaceMember) : Val := .struct c!"AttributeNamespaceMember"
  [(c!"attributes", attrsVal m.attributes), (c!"readonly", kwVal .readOnly), (c!"attribute", kwVal .attribute),
   (c!"type_", attributedTypeVal m.type_), (c!"identifier", identVal m.identifier),
   (c!"semi_colon", punctVal .semiColon)]

/-- `NamespaceMember`, `/repo/src/namespace.rs:12-42`. -/
def namespaceMemberVal : NamespaceMember → Val
  | .const m => .variant c!"NamespaceMember" c!"Const" (constVal c!"ConstNamespaceMember" m)
  | .operation m => .variant c!"NamespaceMember" c!"Operation" (operationNamespaceMemberVal m)
  | .attribute m => .variant c!"NamespaceMember" c!"Attribute" (attributeNamespaceMemberVal m)

/-! ## `/repo/src/dictionary.rs` -/

def dictionaryMemberVal (m : DictionaryMember) : Val := .struct c!"DictionaryMember"
  [(c!"attributes", attrsVal m.attributes), (c!"required", flagVal (kwVal .required) m.required),
   (c!"type_", typeVal m.type_), (c!"identifier", identVal m.identifier), (c!"default", optVal defaultVal m.default),
   (c!"semi_colon", punctVal .semiColon)]

/-! ## `/repo/src/lib.rs` -/

/-- `Braced<Vec<..>>`. `Braced<..Members<'a>>`, for instance `/repo/src/lib.rs:143`. -/
def bodyVal (f : α → Val) (ms : List α) : Val := braceVal (.list (ms.map f))

/-- `Definition`, `/repo/src/lib.rs:116-241`. -/
def definitionVal : Definition → Val
  | .callback as i r args => .variant c!"Definition" c!"Callback" (.struct c!"CallbackDefinition"
      [(c!"attributes", attrsVal as), (c!"callback", kwVal .callback), (c!"identifier", identVal i),
       (c!"assign", punctVal .assign), (c!"return_type", returnTypeVal r), (c!"arguments", argsVal args),
       (c!"semi_colon", punctVal .semiColon)])
  | .callbackInterface as i inh ms => .variant c!"Definition" c!"CallbackInterface" (.struct c!"CallbackInterfaceDefinition"
      [(c!"attributes", attrsVal as), (c!"callback", kwVal .callback), (c!"interface", kwVal .interface),
       (c!"identifier", identVal i), (c!"inheritance", optVal inheritanceVal inh),
       (c!"members", bodyVal interfaceMemberVal ms), (c!"semi_colon", punctVal .semiColon)])
  | .interface as i inh ms => .variant c!"Definition" c!"Interface" (.struct c!"InterfaceDefinition"
      [(c!"attributes", attrsVal as), (c!"interface", kwVal .interface), (c!"identifier", identVal i),
       (c!"inheritance", optVal inheritanceVal inh), (c!"members", bodyVal interfaceMemberVal ms),
       (c!"semi_colon", punctVal .semiColon)])
  | .interfaceMixin as i ms => .variant c!"Definition" c!"InterfaceMixin" (.struct c!"InterfaceMixinDefinition"
      [(c!"attributes", attrsVal as), (c!"interface", kwVal .interface), (c!"mixin", kwVal .mixin),
       (c!"identifier", identVal i), (c!"members", bodyVal mixinMemberVal ms), (c!"semi_colon", punctVal .semiColon)])
  | .namespace as i ms => .variant c!"Definition" c!"Namespace" (.struct c!"NamespaceDefinition"
      [(c!"attributes", attrsVal as), (c!"namespace", kwVal .namespace), (c!"identifier", identVal i),
       (c!"members", bodyVal namespaceMemberVal ms), (c!"semi_colon", punctVal .semiColon)])
  | .dictionary as i inh ms => .variant c!"Definition" c!"Dictionary" (.struct c!"DictionaryDefinition"
      [(c!"attributes", attrsVal as), (c!"dictionary", kwVal .dictionary), (c!"identifier", identVal i),
       (c!"inheritance", optVal inheritanceVal inh), (c!"members", bodyVal dictionaryMemberVal ms),
       (c!"semi_colon", punctVal .semiColon)])
  | .partialInterface as i ms => .variant c!"Definition" c!"PartialInterface" (.struct c!"PartialInterfaceDefinition"
      [(c!"attributes", attrsVal as), (c!"partial", kwVal .partial), (c!"interface", kwVal .interface),
       (c!"identifier", identVal i), (c!"members", bodyVal interfaceMemberVal ms),
       (c!"semi_colon", punctVal .semiColon)])
  | .partialInterfaceMixin as i ms => .variant c!"Definition" c!"PartialInterfaceMixin"
      (.struct c!"PartialInterfaceMixinDefinition"
      [(c!"attributes", attrsVal as), (c!"partial", kwVal .partial), (c!"interface", kwVal .interface),
       (c!"mixin", kwVal .mixin), (c!"identifier", identVal i), (c!"members", bodyVal mixinMemberVal ms),
       (c!"semi_colon", punctVal .semiColon)])
  | .partialDictionary as i ms => .variant c!"Definition" c!"PartialDictionary" (.struct c!"PartialDictionaryDefinition"
      [(c!"attributes", attrsVal as), (c!"partial", kwVal .partial), (c!"dictionary", kwVal .dictionary),
       (c!"identifier", identVal i), (c!"members", bodyVal dictionaryMemberVal ms),
       (c!"semi_colon", punctVal .semiColon)])
  | .partialNamespace as i ms => .variant c!"Definition" c!"PartialNamespace" (.struct c!"PartialNamespaceDefinition"
      [(c!"attributes", attrsVal as), (c!"partial", kwVal .partial), (c!"namespace", kwVal .namespace),
       (c!"identifier", identVal i), (c!"members", bodyVal namespaceMemberVal ms),
       (c!"semi_colon", punctVal .semiColon)])
  | .enum as i vs => .variant c!"Definition" c!"Enum" (.struct c!"EnumDefinition"
      [(c!"attributes", attrsVal as), (c!"enum_", kwVal .enum), (c!"identifier", identVal i),
       (c!"values", braceVal (punctuatedNonEmptyVal (punctVal .comma) (vs.map stringVal))),
       (c!"semi_colon", punctVal .semiColon)])
  | .typedef as t i => .variant c!"Definition" c!"Typedef" (.struct c!"TypedefDefinition"
      [(c!"attributes", attrsVal as), (c!"typedef", kwVal .typedef), (c!"type_", attributedTypeVal t),
       (c!"identifier", identVal i), (c!"semi_colon", punctVal .semiColon)])
  | .includesStatement as l r => .variant c!"Definition" c!"IncludesStatement" (.struct c!"IncludesStatementDefinition"
      [(c!"attributes", attrsVal as), (c!"lhs_identifier", identVal l), (c!"includes", kwVal .includes),
       (c!"rhs_identifier", identVal r), (c!"semi_colon", punctVal .semiColon)])
  | .implements as l r => .variant c!"Definition" c!"Implements" (.struct c!"ImplementsDefinition"
      [(c!"attributes", attrsVal as), (c!"lhs_identifier", identVal l), (c!"includes", kwVal .implements),
       (c!"rhs_identifier", identVal r), (c!"semi_colon", punctVal .semiColon)])

end

end Verif.Source
