import Verif.Model.Lex
import Verif.Model.Ast

/-!
# The grammar

`ast_types!` (`/repo/src/macros.rs:57-552`) is a small grammar language: a struct is the
sequence of its fields (`__ast_struct`, lines 221-398), an enum is the ordered choice of
its variants (`__ast_enum`, lines 400-552). `G α` is that language as data, `G.run` is
the meaning the macros give to it in terms of nom's combinators.
-/

namespace Verif
open Nom

/-- The leaves: parsers of the form `ws!(..)` (`/repo/src/whitespace.rs:20-31`). -/
inductive Leaf : Type → Type where
  /-- a symbol terminal, `/repo/src/term.rs:1-16` -/
  | punct (p : Punct) : Leaf Unit
  /-- a keyword terminal, `/repo/src/term.rs:38-53` -/
  | kw (k : Kw) : Leaf Unit
  /-- `/repo/src/common.rs:80` -/
  | ident : Leaf Str
  /-- `/repo/src/literal.rs:7` -/
  | dec : Leaf Str
  /-- `/repo/src/literal.rs:17` -/
  | hex : Leaf Str
  /-- `/repo/src/literal.rs:28` -/
  | oct : Leaf Str
  /-- `/repo/src/literal.rs:96` -/
  | float : Leaf Str
  /-- `/repo/src/literal.rs:42` -/
  | string : Leaf Str

/-- The points where the recursion of the Rust parsers is cut: the calls of
`Type::parse` (`/repo/src/types.rs:11-18`), `NonAnyType::parse` (from `RecordKeyType`,
`/repo/src/types.rs:127-132`), `UnionMemberType::parse` (`/repo/src/types.rs:135-138`) and
`Argument::parse` (`/repo/src/argument.rs:10-31`). -/
inductive NT : Type → Type where
  | type : NT Ty
  | nonAny : NT NonAnyType
  | unionMember : NT UnionMember
  | argument : NT Argument

/-- Grammar expressions: the field and variant lists of `ast_types!`, `/repo/src/macros.rs:57-552`. -/
inductive G : Type → Type 1 where
  /-- build the value, `/repo/src/macros.rs:268-274` -/
  | ret {α : Type} (a : α) : G α
  /-- a terminal -/
  | leaf {α : Type} (l : Leaf α) : G α
  /-- parse a field, then the rest of the fields, `/repo/src/macros.rs:275-291` -/
  | bind {α β : Type} (g : G α) (f : α → G β) : G β
  /-- one alternative of `alt!`, `/repo/src/macros.rs:491-520` -/
  | orElse {α : Type} (g h : G α) : G α
  /-- the end of the alternatives of `alt!` -/
  | altEnd {α : Type} : G α
  /-- `Option<T>`, `/repo/src/common.rs:5-7` -/
  | opt {α : Type} (g : G α) : G (Option α)
  /-- `Vec<T>`, `/repo/src/common.rs:14-16` -/
  | many0 {α : Type} (g : G α) : G (List α)
  /-- `separated_list!`, `/repo/src/common.rs:62-65` -/
  | separatedList {α β : Type} (sep : G β) (g : G α) : G (List α)
  /-- `separated_nonempty_list!`, `/repo/src/common.rs:70` -/
  | separatedNonemptyList {α β : Type} (sep : G β) (g : G α) : G (List α)
  /-- a recursive call -/
  | call {α : Type} (n : NT α) : G α

instance : Monad G where
  pure := G.ret
  bind := G.bind

/-- The parser denoted by a grammar expression, given parsers for the leaves and for
the recursion points: the `parser!` of `__ast_struct` and `__ast_enum`, `/repo/src/macros.rs:221-552`. -/
def G.run {σ : Type} [DecidableEq σ] (leaf : ∀ α, Leaf α → P σ α) (nt : ∀ α, NT α → P σ α) :
    {α : Type} → G α → P σ α
  | _, .ret a => Nom.ret a
  | _, .leaf l => leaf _ l
  | _, .bind g f => Nom.seq (g.run leaf nt) fun a => (f a).run leaf nt
  | _, .orElse g h => Nom.orElse (g.run leaf nt) (h.run leaf nt)
  | _, .altEnd => Nom.altEnd
  | _, .opt g => Nom.opt (g.run leaf nt)
  | _, .many0 g => Nom.many0 (g.run leaf nt)
  | _, .separatedList sep g => Nom.separatedList (sep.run leaf nt) (g.run leaf nt)
  | _, .separatedNonemptyList sep g =>
    Nom.separatedNonemptyList (sep.run leaf nt) (g.run leaf nt)
  | _, .call n => nt _ n

namespace G

variable {α β : Type}

/-- `weedle!(term::X)` for a symbol, `/repo/src/term.rs:8-13` -/
def punct (p : Punct) : G Unit := .leaf (.punct p)
/-- `weedle!(term::X)` for a keyword, `/repo/src/term.rs:45-50` -/
def kw (k : Kw) : G Unit := .leaf (.kw k)
/-- `weedle!(Identifier)`, `/repo/src/common.rs:80-92` -/
def ident : G Str := .leaf .ident

/-- `alt!(g1 | g2 | ...)`, `/repo/src/macros.rs:496-498`, `/repo/src/literal.rs:85-88` -/
def alts : List (G α) → G α
  | [] => .altEnd
  | g :: gs => .orElse g (alts gs)

/-- An enum variant: `weedle!(Member) => {From::from}`, `/repo/src/macros.rs:496-498`
(the `From` impls, lines 460-489, are the constructors). -/
def variant (f : α → β) (g : G α) : G β := do
  let a ← g
  pure (f a)

/-- A variant that holds only a keyword, for instance `/repo/src/types.rs:14` or `/repo/src/interface.rs:124`. The value of
the keyword's unit struct is not stored. -/
def kwAs (k : Kw) (a : α) : G α := do
  kw k
  pure a

/-- `Option<term!(x)>` for a keyword, for instance `/repo/src/types.rs:86`. `Some` and `None` are stored as a `Bool`. -/
def optKw (k : Kw) : G Bool := do
  let o ← G.opt (kw k)
  pure o.isSome

/-- `Option<term!(x)>` for a symbol, `/repo/src/types.rs:71`. `Some` and `None` are stored as a `Bool`. -/
def optPunct (p : Punct) : G Bool := do
  let o ← G.opt (punct p)
  pure o.isSome

/-- `cond!(b, g)`, `/repo/src/argument.rs:20` -/
def cond (b : Bool) (g : G α) : G (Option α) :=
  if b then variant some g else pure none

/-! ## `/repo/src/common.rs` -/

/-- `/repo/src/common.rs:31-35` -/
def parenthesized (g : G α) : G α := do
  punct .openParen
  let body ← g
  punct .closeParen
  pure body

/-- `/repo/src/common.rs:39-43` -/
def bracketed (g : G α) : G α := do
  punct .openBracket
  let body ← g
  punct .closeBracket
  pure body

/-- `/repo/src/common.rs:47-51` -/
def braced (g : G α) : G α := do
  punct .openBrace
  let body ← g
  punct .closeBrace
  pure body

/-- `/repo/src/common.rs:55-59` -/
def generics (g : G α) : G α := do
  punct .lessThan
  let body ← g
  punct .greaterThan
  pure body

/-- `/repo/src/common.rs:62-65` (the `separator` field is a marker) -/
def punctuated (g : G α) (sep : G β) : G (List α) := .separatedList sep g

/-- `/repo/src/common.rs:68-74`: `terminated!(separated_nonempty_list!(S, T), opt!(S))` -/
def punctuatedNonEmpty (g : G α) (sep : G β) : G (List α) := do
  let list ← G.separatedNonemptyList sep g
  let _ ← G.opt sep
  pure list

/-- `Punctuated<T, term!(,)>`, `/repo/src/attribute.rs:6,9`, `/repo/src/argument.rs:6` -/
def commaList (g : G α) : G (List α) := punctuated g (punct .comma)

/-! ## `/repo/src/literal.rs` -/

/-- `/repo/src/literal.rs:4-36` -/
def integerLit : G IntegerLit := alts [
  variant .dec (.leaf .dec),
  variant .hex (.leaf .hex),
  variant .oct (.leaf .oct)]

/-- `/repo/src/literal.rs:93-142` -/
def floatLit : G FloatLit := alts [
  variant .value (.leaf .float),
  kwAs .negInfinity .negInfinity,
  kwAs .infinity .infinity,
  kwAs .nan .nan]

/-- `/repo/src/literal.rs:84-89` -/
def booleanLit : G Bool := alts [kwAs .true true, kwAs .false false]

/-- `/repo/src/literal.rs:42` -/
def stringLit : G Str := .leaf .string

/-- `/repo/src/literal.rs:57-60` -/
def emptyArrayLit : G Unit := do
  punct .openBracket
  punct .closeBracket
  pure ()

/-- `/repo/src/literal.rs:63-66` -/
def emptyDictionaryLit : G Unit := do
  punct .openBrace
  punct .closeBrace
  pure ()

/-- `/repo/src/literal.rs:53-71` -/
def defaultValue : G DefaultValue := alts [
  variant .boolean booleanLit,
  variant (fun _ => .emptyArray) emptyArrayLit,
  variant (fun _ => .emptyDictionary) emptyDictionaryLit,
  variant .float floatLit,
  variant .integer integerLit,
  kwAs .null .null,
  variant .string stringLit]

/-- `/repo/src/literal.rs:75-80` -/
def constValue : G ConstValue := alts [
  variant .boolean booleanLit,
  variant .float floatLit,
  variant .integer integerLit,
  kwAs .null .null]

/-- `/repo/src/common.rs:96-99` -/
def default : G DefaultValue := do
  punct .assign
  let value ← defaultValue
  pure value

/-! ## `/repo/src/attribute.rs`, `/repo/src/argument.rs` -/

/-- `/repo/src/argument.rs:6` -/
def argumentList : G (List Argument) := commaList (.call .argument)

/-- `/repo/src/attribute.rs:9` -/
def identifierList : G (List Str) := commaList ident

/-- `/repo/src/attribute.rs:62-65` -/
def identifierOrString : G IdentifierOrString := alts [
  variant .identifier ident,
  variant .string stringLit]

/-- `/repo/src/attribute.rs:17-20` -/
def extAttrArgList : G ExtAttr := do
  let identifier ← ident
  let args ← parenthesized argumentList
  pure (.argList identifier args)

/-- `/repo/src/attribute.rs:24-30` -/
def extAttrNamedArgList : G ExtAttr := do
  let lhs ← ident
  punct .assign
  let rhs ← ident
  let args ← parenthesized argumentList
  pure (.namedArgList lhs rhs args)

/-- `/repo/src/attribute.rs:34-38` -/
def extAttrIdentList : G ExtAttr := do
  let identifier ← ident
  punct .assign
  let list ← parenthesized identifierList
  pure (.identList identifier list)

/-- `/repo/src/attribute.rs:41-45` -/
def extAttrIdent : G ExtAttr := do
  let lhs ← ident
  punct .assign
  let rhs ← identifierOrString
  pure (.ident lhs rhs)

/-- `/repo/src/attribute.rs:48-52` -/
def extAttrWildcard : G ExtAttr := do
  let lhs ← ident
  punct .assign
  punct .asterisk
  pure (.wildcard lhs)

/-- `/repo/src/attribute.rs:55-57` -/
def extAttrNoArgs : G ExtAttr := do
  let identifier ← ident
  pure (.noArgs identifier)

/-- `/repo/src/attribute.rs:13-58` -/
def extAttr : G ExtAttr := alts [
  extAttrArgList,
  extAttrNamedArgList,
  extAttrIdentList,
  extAttrIdent,
  extAttrWildcard,
  extAttrNoArgs]

/-- `/repo/src/attribute.rs:6` -/
def extAttrList : G (List ExtAttr) := bracketed (commaList extAttr)

/-- The field `attributes: Option<ExtendedAttributeList<'a>>` of most structs, for instance `/repo/src/lib.rs:119`. -/
def attrs : G Attrs := .opt extAttrList

/-! ## `/repo/src/types.rs` -/

/-- `/repo/src/types.rs:69-72`: `MayBeNull<T>`, applied to a constructor taking the
inner value and the presence of `?`. -/
def mayBeNull (f : α → Bool → β) (g : G α) : G β := do
  let type_ ← g
  let q ← optPunct .qMark
  pure (f type_ q)

/-- `/repo/src/types.rs:85-88` -/
def longLongType : G IntegerType := do
  let unsigned ← optKw .unsigned
  kw .long
  kw .long
  pure (.longLong unsigned)

/-- `/repo/src/types.rs:91-94` -/
def longType : G IntegerType := do
  let unsigned ← optKw .unsigned
  kw .long
  pure (.long unsigned)

/-- `/repo/src/types.rs:97-100` -/
def shortType : G IntegerType := do
  let unsigned ← optKw .unsigned
  kw .short
  pure (.short unsigned)

/-- `/repo/src/types.rs:82-101` -/
def integerType : G IntegerType := alts [longLongType, longType, shortType]

/-- `/repo/src/types.rs:108-111` -/
def floatType : G FloatingPointType := do
  let unrestricted ← optKw .unrestricted
  kw .float
  pure (.float unrestricted)

/-- `/repo/src/types.rs:114-117` -/
def doubleType : G FloatingPointType := do
  let unrestricted ← optKw .unrestricted
  kw .double
  pure (.double unrestricted)

/-- `/repo/src/types.rs:105-118` -/
def floatingPointType : G FloatingPointType := alts [floatType, doubleType]

/-- The keyword of each one-keyword variant of `NonAnyType`
(`/repo/src/types.rs:25-30,32-47`). -/
def builtinKw : Builtin → Kw
  | .boolean => .boolean
  | .byte => .byte
  | .octet => .octet
  | .byteString => .byteString
  | .domString => .domString
  | .usvString => .usvString
  | .object => .object
  | .symbol => .symbol
  | .error => .error
  | .arrayBuffer => .arrayBuffer
  | .dataView => .dataView
  | .int8Array => .int8Array
  | .int16Array => .int16Array
  | .int32Array => .int32Array
  | .uint8Array => .uint8Array
  | .uint16Array => .uint16Array
  | .uint32Array => .uint32Array
  | .uint8ClampedArray => .uint8ClampedArray
  | .float32Array => .float32Array
  | .float64Array => .float64Array
  | .arrayBufferView => .arrayBufferView
  | .bufferSource => .bufferSource

/-- One variant `X(MayBeNull<term!(x)>)`, `/repo/src/types.rs:25-30,32-47`. -/
def builtin (b : Builtin) : G NonAnyType :=
  mayBeNull (fun b q => .builtin b q) (kwAs (builtinKw b) b)

/-- `UnionType`, `/repo/src/types.rs:7`: `Parenthesized<Punctuated<UnionMemberType, or>>` -/
def unionType : G (List UnionMember) :=
  parenthesized (punctuated (.call .unionMember) (kw .or))

/-- `/repo/src/types.rs:151-154` as it occurs in `PromiseType`; see `returnTypeOf`. -/
def returnTypeOf (type : G Ty) : G ReturnType := alts [
  kwAs .undefined .undefined,
  variant .type type]

/-- `/repo/src/types.rs:75-78` -/
def promiseType : G NonAnyType := do
  kw .promise
  let r ← generics (returnTypeOf (.call .type))
  pure (.promise r)

/-- `/repo/src/types.rs:54-57` -/
def sequenceType : G Ty := do
  kw .sequence
  let t ← generics (.call .type)
  pure t

/-- `/repo/src/types.rs:60-63` -/
def frozenArrayType : G Ty := do
  kw .frozenArray
  let t ← generics (.call .type)
  pure t

/-- `/repo/src/types.rs:127-132` -/
def recordKeyType : G RecordKeyType := alts [
  kwAs .byteString .byte,
  kwAs .domString .dom,
  kwAs .usvString .usv,
  variant .nonAny (.call .nonAny)]

/-- `/repo/src/types.rs:121-124` -/
def recordType : G (RecordKeyType × Ty) := do
  kw .record
  let g ← generics (do
    let key ← recordKeyType
    punct .comma
    let value ← G.call .type
    pure (key, value))
  pure g

/-- `/repo/src/types.rs:21-51` -/
def nonAnyType : G NonAnyType := alts [
  promiseType,
  mayBeNull .integer integerType,
  mayBeNull .floatingPoint floatingPointType,
  builtin .boolean,
  builtin .byte,
  builtin .octet,
  builtin .byteString,
  builtin .domString,
  builtin .usvString,
  mayBeNull .sequence sequenceType,
  builtin .object,
  builtin .symbol,
  builtin .error,
  builtin .arrayBuffer,
  builtin .dataView,
  builtin .int8Array,
  builtin .int16Array,
  builtin .int32Array,
  builtin .uint8Array,
  builtin .uint16Array,
  builtin .uint32Array,
  builtin .uint8ClampedArray,
  builtin .float32Array,
  builtin .float64Array,
  builtin .arrayBufferView,
  builtin .bufferSource,
  mayBeNull .frozenArray frozenArrayType,
  mayBeNull (fun kv q => .record kv.1 kv.2 q) recordType,
  mayBeNull .identifier ident]

/-- `/repo/src/types.rs:13-16` -/
def singleType : G SingleType := alts [
  kwAs .any .any,
  variant .nonAny nonAnyType]

/-- `/repo/src/types.rs:11-18` -/
def type : G Ty := alts [
  variant .single singleType,
  mayBeNull .union unionType]

/-- `/repo/src/types.rs:163-166` and the variant `Single` of 135-138 -/
def attributedNonAnyType : G UnionMember := do
  let attributes ← attrs
  let type_ ← nonAnyType
  pure (.single attributes type_)

/-- `/repo/src/types.rs:135-138` -/
def unionMemberType : G UnionMember := alts [
  attributedNonAnyType,
  mayBeNull .union unionType]

/-- `/repo/src/types.rs:141-148` -/
def constType : G ConstType := alts [
  mayBeNull .integer integerType,
  mayBeNull .floatingPoint floatingPointType,
  mayBeNull (fun _ q => .boolean q) (kw .boolean),
  mayBeNull (fun _ q => .byte q) (kw .byte),
  mayBeNull (fun _ q => .octet q) (kw .octet),
  mayBeNull .identifier ident]

/-- `/repo/src/types.rs:151-154` -/
def returnType : G ReturnType := returnTypeOf type

/-- `/repo/src/types.rs:157-160` -/
def attributedType : G AttributedType := do
  let attributes ← attrs
  let type_ ← type
  pure (.mk attributes type_)

/-! ## `/repo/src/argument.rs` -/

/-- `/repo/src/argument.rs:14-23` -/
def singleArgument : G Argument := do
  let attributes ← attrs
  let optional ← optKw .optional
  let type_ ← attributedType
  let identifier ← ident
  let default ← variant (fun d => d.getD none) (cond optional (.opt default))
  pure (.single attributes optional type_ identifier default)

/-- `/repo/src/argument.rs:25-30` -/
def variadicArgument : G Argument := do
  let attributes ← attrs
  let type_ ← type
  punct .ellipsis
  let identifier ← ident
  pure (.variadic attributes type_ identifier)

/-- `/repo/src/argument.rs:10-31` -/
def argument : G Argument := alts [singleArgument, variadicArgument]

/-- The bodies of the recursion points: `/repo/src/types.rs:11-18,21-51,135-138`, `/repo/src/argument.rs:10-31`. -/
def body : {α : Type} → NT α → G α
  | _, .type => type
  | _, .nonAny => nonAnyType
  | _, .unionMember => unionMemberType
  | _, .argument => argument

/-! ## `/repo/src/interface.rs` -/

/-- `/repo/src/interface.rs:13-16` -/
def inheritance : G Str := do
  punct .colon
  let identifier ← ident
  pure identifier

/-- `/repo/src/interface.rs:21-29`, `/repo/src/namespace.rs:14-22` -/
def constMember : G ConstMember := do
  let attributes ← attrs
  kw .const
  let constType ← constType
  let identifier ← ident
  punct .assign
  let constValue ← constValue
  punct .semiColon
  pure { attributes, constType, identifier, constValue }

/-- `/repo/src/interface.rs:132-136` -/
def stringifierOrInheritOrStatic : G StringifierOrInheritOrStatic := alts [
  kwAs .stringifier .stringifier,
  kwAs .inherit .inherit,
  kwAs .static .static]

/-- `/repo/src/interface.rs:140-143` -/
def stringifierOrStatic : G StringifierOrStatic := alts [
  kwAs .stringifier .stringifier,
  kwAs .static .static]

/-- `/repo/src/interface.rs:123-128` -/
def special : G Special := alts [
  kwAs .getter .getter,
  kwAs .setter .setter,
  kwAs .deleter .deleter,
  kwAs .legacyCaller .legacyCaller]

/-- `/repo/src/interface.rs:31-39` -/
def attributeInterfaceMember : G AttributeInterfaceMember := do
  let attributes ← attrs
  let modifier ← G.opt stringifierOrInheritOrStatic
  let readonly ← optKw .readOnly
  kw .attribute
  let type_ ← attributedType
  let identifier ← ident
  punct .semiColon
  pure { attributes, modifier, readonly, type_, identifier }

/-- `/repo/src/interface.rs:43-48` -/
def constructorInterfaceMember : G ConstructorInterfaceMember := do
  let attributes ← attrs
  kw .constructor
  let args ← parenthesized argumentList
  punct .semiColon
  pure { attributes, args }

/-- `/repo/src/interface.rs:52-60` -/
def operationInterfaceMember : G OperationInterfaceMember := do
  let attributes ← attrs
  let modifier ← G.opt stringifierOrStatic
  let special ← G.opt special
  let returnType ← returnType
  let identifier ← G.opt ident
  let args ← parenthesized argumentList
  punct .semiColon
  pure { attributes, modifier, special, returnType, identifier, args }

/-- The body `(AttributedType, term!(,), AttributedType)` of several generics, `/repo/src/interface.rs:74,92,102`. -/
def attributedTypePair : G (AttributedType × AttributedType) := do
  let a ← attributedType
  punct .comma
  let b ← attributedType
  pure (a, b)

/-- `/repo/src/interface.rs:64-69` -/
def singleTypedIterable : G IterableInterfaceMember := do
  let attributes ← attrs
  kw .iterable
  let g ← generics attributedType
  punct .semiColon
  pure (.single attributes g)

/-- `/repo/src/interface.rs:71-76` -/
def doubleTypedIterable : G IterableInterfaceMember := do
  let attributes ← attrs
  kw .iterable
  let g ← generics attributedTypePair
  punct .semiColon
  pure (.double attributes g)

/-- `/repo/src/interface.rs:62-77` -/
def iterableInterfaceMember : G IterableInterfaceMember := alts [
  singleTypedIterable,
  doubleTypedIterable]

/-- `/repo/src/interface.rs:81-87` -/
def singleTypedAsyncIterable : G AsyncIterableInterfaceMember := do
  let attributes ← attrs
  kw .async
  kw .iterable
  let g ← generics attributedType
  let args ← G.opt (parenthesized argumentList)
  punct .semiColon
  pure (.single attributes g args)

/-- `/repo/src/interface.rs:89-95` -/
def doubleTypedAsyncIterable : G AsyncIterableInterfaceMember := do
  let attributes ← attrs
  kw .async
  kw .iterable
  let g ← generics attributedTypePair
  let args ← G.opt (parenthesized argumentList)
  punct .semiColon
  pure (.double attributes g args)

/-- `/repo/src/interface.rs:79-96` -/
def asyncIterableInterfaceMember : G AsyncIterableInterfaceMember := alts [
  singleTypedAsyncIterable,
  doubleTypedAsyncIterable]

/-- `/repo/src/interface.rs:98-104` -/
def maplikeInterfaceMember : G MaplikeInterfaceMember := do
  let attributes ← attrs
  let readonly ← optKw .readOnly
  kw .maplike
  let g ← G.generics attributedTypePair
  punct .semiColon
  pure { attributes, readonly, generics := g }

/-- `/repo/src/interface.rs:105-111` -/
def setlikeInterfaceMember : G SetlikeInterfaceMember := do
  let attributes ← attrs
  let readonly ← optKw .readOnly
  kw .setlike
  let g ← G.generics attributedType
  punct .semiColon
  pure { attributes, readonly, generics := g }

/-- `/repo/src/interface.rs:114-118` -/
def stringifierMember : G StringifierMember := do
  let attributes ← attrs
  kw .stringifier
  punct .semiColon
  pure { attributes }

/-- `/repo/src/interface.rs:19-119` -/
def interfaceMember : G InterfaceMember := alts [
  variant .const constMember,
  variant .attribute attributeInterfaceMember,
  variant .constructor constructorInterfaceMember,
  variant .operation operationInterfaceMember,
  variant .iterable iterableInterfaceMember,
  variant .asyncIterable asyncIterableInterfaceMember,
  variant .maplike maplikeInterfaceMember,
  variant .setlike setlikeInterfaceMember,
  variant .stringifier stringifierMember]

/-- `/repo/src/interface.rs:8` -/
def interfaceMembers : G (List InterfaceMember) := .many0 interfaceMember

/-! ## `/repo/src/mixin.rs` -/

/-- `/repo/src/mixin.rs:17-24` -/
def operationMixinMember : G OperationMixinMember := do
  let attributes ← attrs
  let stringifier ← optKw .stringifier
  let returnType ← returnType
  let identifier ← G.opt ident
  let args ← parenthesized argumentList
  punct .semiColon
  pure { attributes, stringifier, returnType, identifier, args }

/-- `/repo/src/mixin.rs:26-34` -/
def attributeMixinMember : G AttributeMixinMember := do
  let attributes ← attrs
  let stringifier ← optKw .stringifier
  let readonly ← optKw .readOnly
  kw .attribute
  let type_ ← attributedType
  let identifier ← ident
  punct .semiColon
  pure { attributes, stringifier, readonly, type_, identifier }

/-- `/repo/src/mixin.rs:12-36` -/
def mixinMember : G MixinMember := alts [
  variant .const constMember,
  variant .operation operationMixinMember,
  variant .attribute attributeMixinMember,
  variant .stringifier stringifierMember]

/-- `/repo/src/mixin.rs:8` -/
def mixinMembers : G (List MixinMember) := .many0 mixinMember

/-! ## `/repo/src/namespace.rs` -/

/-- `/repo/src/namespace.rs:26-32` -/
def operationNamespaceMember : G OperationNamespaceMember := do
  let attributes ← attrs
  let returnType ← returnType
  let identifier ← G.opt ident
  let args ← parenthesized argumentList
  punct .semiColon
  pure { attributes, returnType, identifier, args }

/-- `/repo/src/namespace.rs:34-41` -/
def attributeNamespaceMember : G AttributeNamespaceMember := do
  let attributes ← attrs
  kw .readOnly
  kw .attribute
  let type_ ← attributedType
  let identifier ← ident
  punct .semiColon
  pure { attributes, type_, identifier }

/-- `/repo/src/namespace.rs:12-42` -/
def namespaceMember : G NamespaceMember := alts [
  variant .const constMember,
  variant .operation operationNamespaceMember,
  variant .attribute attributeNamespaceMember]

/-- `/repo/src/namespace.rs:8` -/
def namespaceMembers : G (List NamespaceMember) := .many0 namespaceMember

/-! ## `/repo/src/dictionary.rs` -/

/-- `/repo/src/dictionary.rs:10-17` -/
def dictionaryMember : G DictionaryMember := do
  let attributes ← attrs
  let required ← optKw .required
  let type_ ← type
  let identifier ← ident
  let default ← G.opt default
  punct .semiColon
  pure { attributes, required, type_, identifier, default }

/-- `/repo/src/dictionary.rs:6` -/
def dictionaryMembers : G (List DictionaryMember) := .many0 dictionaryMember

/-! ## `/repo/src/lib.rs` -/

/-- `/repo/src/lib.rs:118-126` -/
def callbackDefinition : G Definition := do
  let attributes ← attrs
  kw .callback
  let identifier ← ident
  punct .assign
  let returnType ← returnType
  let arguments ← parenthesized argumentList
  punct .semiColon
  pure (.callback attributes identifier returnType arguments)

/-- `/repo/src/lib.rs:128-136` -/
def callbackInterfaceDefinition : G Definition := do
  let attributes ← attrs
  kw .callback
  kw .interface
  let identifier ← ident
  let inh ← G.opt inheritance
  let members ← braced interfaceMembers
  punct .semiColon
  pure (.callbackInterface attributes identifier inh members)

/-- `/repo/src/lib.rs:138-145` -/
def interfaceDefinition : G Definition := do
  let attributes ← attrs
  kw .interface
  let identifier ← ident
  let inh ← G.opt inheritance
  let members ← braced interfaceMembers
  punct .semiColon
  pure (.interface attributes identifier inh members)

/-- `/repo/src/lib.rs:147-154` -/
def interfaceMixinDefinition : G Definition := do
  let attributes ← attrs
  kw .interface
  kw .mixin
  let identifier ← ident
  let members ← braced mixinMembers
  punct .semiColon
  pure (.interfaceMixin attributes identifier members)

/-- `/repo/src/lib.rs:156-162` -/
def namespaceDefinition : G Definition := do
  let attributes ← attrs
  kw .namespace
  let identifier ← ident
  let members ← braced namespaceMembers
  punct .semiColon
  pure (.namespace attributes identifier members)

/-- `/repo/src/lib.rs:164-171` -/
def dictionaryDefinition : G Definition := do
  let attributes ← attrs
  kw .dictionary
  let identifier ← ident
  let inh ← G.opt inheritance
  let members ← braced dictionaryMembers
  punct .semiColon
  pure (.dictionary attributes identifier inh members)

/-- `/repo/src/lib.rs:173-180` -/
def partialInterfaceDefinition : G Definition := do
  let attributes ← attrs
  kw .partial
  kw .interface
  let identifier ← ident
  let members ← braced interfaceMembers
  punct .semiColon
  pure (.partialInterface attributes identifier members)

/-- `/repo/src/lib.rs:182-190` -/
def partialInterfaceMixinDefinition : G Definition := do
  let attributes ← attrs
  kw .partial
  kw .interface
  kw .mixin
  let identifier ← ident
  let members ← braced mixinMembers
  punct .semiColon
  pure (.partialInterfaceMixin attributes identifier members)

/-- `/repo/src/lib.rs:192-199` -/
def partialDictionaryDefinition : G Definition := do
  let attributes ← attrs
  kw .partial
  kw .dictionary
  let identifier ← ident
  let members ← braced dictionaryMembers
  punct .semiColon
  pure (.partialDictionary attributes identifier members)

/-- `/repo/src/lib.rs:201-208` -/
def partialNamespaceDefinition : G Definition := do
  let attributes ← attrs
  kw .partial
  kw .namespace
  let identifier ← ident
  let members ← braced namespaceMembers
  punct .semiColon
  pure (.partialNamespace attributes identifier members)

/-- `/repo/src/lib.rs:245` -/
def enumValueList : G (List Str) := punctuatedNonEmpty stringLit (punct .comma)

/-- `/repo/src/lib.rs:210-216` -/
def enumDefinition : G Definition := do
  let attributes ← attrs
  kw .enum
  let identifier ← ident
  let values ← braced enumValueList
  punct .semiColon
  pure (.enum attributes identifier values)

/-- `/repo/src/lib.rs:218-224` -/
def typedefDefinition : G Definition := do
  let attributes ← attrs
  kw .typedef
  let type_ ← attributedType
  let identifier ← ident
  punct .semiColon
  pure (.typedef attributes type_ identifier)

/-- `/repo/src/lib.rs:226-232` -/
def includesStatementDefinition : G Definition := do
  let attributes ← attrs
  let lhs ← ident
  kw .includes
  let rhs ← ident
  punct .semiColon
  pure (.includesStatement attributes lhs rhs)

/-- `/repo/src/lib.rs:234-240` -/
def implementsDefinition : G Definition := do
  let attributes ← attrs
  let lhs ← ident
  kw .implements
  let rhs ← ident
  punct .semiColon
  pure (.implements attributes lhs rhs)

/-- `/repo/src/lib.rs:116-241` -/
def definition : G Definition := alts [
  callbackDefinition,
  callbackInterfaceDefinition,
  interfaceDefinition,
  interfaceMixinDefinition,
  namespaceDefinition,
  dictionaryDefinition,
  partialInterfaceDefinition,
  partialInterfaceMixinDefinition,
  partialDictionaryDefinition,
  partialNamespaceDefinition,
  enumDefinition,
  typedefDefinition,
  includesStatementDefinition,
  implementsDefinition]

/-- `/repo/src/lib.rs:112` -/
def definitions : G (List Definition) := .many0 definition

end G
end Verif
