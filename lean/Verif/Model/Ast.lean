import Verif.Model.Nom

/-!
# The AST

Differences from the Rust types, all of them bijective: mandatory terminals are not
stored (each is a unit struct), `Option<term!(x)>` is a `Bool`, `Box<T>`,
`Parenthesized<T>`, `Bracketed<T>`, `Braced<T>`, `Generics<T>` and `Punctuated<T, S>` are their
payload, `MayBeNull<T>` is `T` together with a `Bool` `q` ("has a `?`").
-/

namespace Verif

/-- `/repo/src/types.rs:82-101` -/
inductive IntegerType where
  | longLong (unsigned : Bool)
  | long (unsigned : Bool)
  | short (unsigned : Bool)
  deriving DecidableEq, Repr

/-- `/repo/src/types.rs:105-118` -/
inductive FloatingPointType where
  | float (unrestricted : Bool)
  | double (unrestricted : Bool)
  deriving DecidableEq, Repr

/-- `/repo/src/literal.rs:4-36` -/
inductive IntegerLit where
  | dec (s : Str)
  | hex (s : Str)
  | oct (s : Str)
  deriving DecidableEq, Repr

/-- `/repo/src/literal.rs:93-142` -/
inductive FloatLit where
  | value (s : Str)
  | negInfinity
  | infinity
  | nan
  deriving DecidableEq, Repr

/-- `/repo/src/literal.rs:53-71` (and `Default`, `/repo/src/common.rs:96-99`, which
adds only the `=`) -/
inductive DefaultValue where
  | boolean (b : Bool)
  | emptyArray
  | emptyDictionary
  | float (f : FloatLit)
  | integer (i : IntegerLit)
  | null
  | string (s : Str)
  deriving DecidableEq, Repr

/-- `/repo/src/literal.rs:75-80` -/
inductive ConstValue where
  | boolean (b : Bool)
  | float (f : FloatLit)
  | integer (i : IntegerLit)
  | null
  deriving DecidableEq, Repr

/-- `/repo/src/attribute.rs:62-65` -/
inductive IdentifierOrString where
  | identifier (s : Str)
  | string (s : Str)
  deriving DecidableEq, Repr

/-- The variants of `NonAnyType` of the form `X(MayBeNull<term!(..)>)`
(`/repo/src/types.rs:25-30,32-47`). -/
inductive Builtin where
  | boolean | byte | octet | byteString | domString | usvString
  | object | symbol | error | arrayBuffer | dataView | int8Array | int16Array | int32Array
  | uint8Array | uint16Array | uint32Array | uint8ClampedArray | float32Array | float64Array
  | arrayBufferView | bufferSource
  deriving DecidableEq, Repr

mutual

/-- `/repo/src/types.rs:11-18`; `UnionType` is `/repo/src/types.rs:7` -/
inductive Ty where
  | single (t : SingleType)
  | union (members : List UnionMember) (q : Bool)

/-- `/repo/src/types.rs:13-16` -/
inductive SingleType where
  | any
  | nonAny (t : NonAnyType)

/-- `/repo/src/types.rs:21-51`, with `SequenceType` (54-57), `FrozenArrayType` (60-63),
`PromiseType` (75-78), `RecordType` (121-124) inlined. -/
inductive NonAnyType where
  | promise (r : ReturnType)
  | integer (t : IntegerType) (q : Bool)
  | floatingPoint (t : FloatingPointType) (q : Bool)
  | builtin (b : Builtin) (q : Bool)
  | sequence (t : Ty) (q : Bool)
  | frozenArray (t : Ty) (q : Bool)
  | record (key : RecordKeyType) (value : Ty) (q : Bool)
  | identifier (s : Str) (q : Bool)

/-- `/repo/src/types.rs:127-132` -/
inductive RecordKeyType where
  | byte
  | dom
  | usv
  | nonAny (t : NonAnyType)

/-- `/repo/src/types.rs:135-138`, with `AttributedNonAnyType` (163-166) inlined. -/
inductive UnionMember where
  | single (attributes : Option (List ExtAttr)) (t : NonAnyType)
  | union (members : List UnionMember) (q : Bool)

/-- `/repo/src/types.rs:151-154` -/
inductive ReturnType where
  | undefined
  | type (t : Ty)

/-- `/repo/src/attribute.rs:13-58`; `ExtendedAttributeList` (line 6) is `List ExtAttr`. -/
inductive ExtAttr where
  | argList (identifier : Str) (args : List Argument)
  | namedArgList (lhs rhs : Str) (args : List Argument)
  | identList (identifier : Str) (list : List Str)
  | ident (lhs : Str) (rhs : IdentifierOrString)
  | wildcard (lhs : Str)
  | noArgs (identifier : Str)

/-- `/repo/src/types.rs:157-160` -/
inductive AttributedType where
  | mk (attributes : Option (List ExtAttr)) (type_ : Ty)

/-- `/repo/src/argument.rs:10-31` -/
inductive Argument where
  | single (attributes : Option (List ExtAttr)) (optional : Bool) (type_ : AttributedType)
      (identifier : Str) (default : Option DefaultValue)
  | variadic (attributes : Option (List ExtAttr)) (type_ : Ty) (identifier : Str)

end

/-- `/repo/src/types.rs:141-148` -/
inductive ConstType where
  | integer (t : IntegerType) (q : Bool)
  | floatingPoint (t : FloatingPointType) (q : Bool)
  | boolean (q : Bool)
  | byte (q : Bool)
  | octet (q : Bool)
  | identifier (s : Str) (q : Bool)
  deriving DecidableEq, Repr

/-- The field `attributes: Option<ExtendedAttributeList<'a>>`, for instance `/repo/src/lib.rs:119`. -/
abbrev Attrs := Option (List ExtAttr)

/-- `ConstMember` (`/repo/src/interface.rs:21-29`) and the identical
`ConstNamespaceMember` (`/repo/src/namespace.rs:14-22`). -/
structure ConstMember where
  attributes : Attrs
  constType : ConstType
  identifier : Str
  constValue : ConstValue

/-- `/repo/src/interface.rs:123-128` -/
inductive Special where
  | getter | setter | deleter | legacyCaller
  deriving DecidableEq, Repr

/-- `/repo/src/interface.rs:132-136` -/
inductive StringifierOrInheritOrStatic where
  | stringifier | inherit | static
  deriving DecidableEq, Repr

/-- `/repo/src/interface.rs:140-143` -/
inductive StringifierOrStatic where
  | stringifier | static
  deriving DecidableEq, Repr

/-- `/repo/src/interface.rs:31-39` -/
structure AttributeInterfaceMember where
  attributes : Attrs
  modifier : Option StringifierOrInheritOrStatic
  readonly : Bool
  type_ : AttributedType
  identifier : Str

/-- `/repo/src/interface.rs:43-48` -/
structure ConstructorInterfaceMember where
  attributes : Attrs
  args : List Argument

/-- `/repo/src/interface.rs:52-60` -/
structure OperationInterfaceMember where
  attributes : Attrs
  modifier : Option StringifierOrStatic
  special : Option Special
  returnType : ReturnType
  identifier : Option Str
  args : List Argument

/-- `/repo/src/interface.rs:62-77` -/
inductive IterableInterfaceMember where
  | single (attributes : Attrs) (generics : AttributedType)
  | double (attributes : Attrs) (generics : AttributedType × AttributedType)

/-- `/repo/src/interface.rs:79-96` -/
inductive AsyncIterableInterfaceMember where
  | single (attributes : Attrs) (generics : AttributedType) (args : Option (List Argument))
  | double (attributes : Attrs) (generics : AttributedType × AttributedType)
      (args : Option (List Argument))

/-- `/repo/src/interface.rs:98-104` -/
structure MaplikeInterfaceMember where
  attributes : Attrs
  readonly : Bool
  generics : AttributedType × AttributedType

/-- `/repo/src/interface.rs:105-111` -/
structure SetlikeInterfaceMember where
  attributes : Attrs
  readonly : Bool
  generics : AttributedType

/-- `/repo/src/interface.rs:114-118` -/
structure StringifierMember where
  attributes : Attrs

/-- `/repo/src/interface.rs:19-119` -/
inductive InterfaceMember where
  | const (m : ConstMember)
  | attribute (m : AttributeInterfaceMember)
  | constructor (m : ConstructorInterfaceMember)
  | operation (m : OperationInterfaceMember)
  | iterable (m : IterableInterfaceMember)
  | asyncIterable (m : AsyncIterableInterfaceMember)
  | maplike (m : MaplikeInterfaceMember)
  | setlike (m : SetlikeInterfaceMember)
  | stringifier (m : StringifierMember)

/-- `/repo/src/mixin.rs:17-24` -/
structure OperationMixinMember where
  attributes : Attrs
  stringifier : Bool
  returnType : ReturnType
  identifier : Option Str
  args : List Argument

/-- `/repo/src/mixin.rs:26-34` -/
structure AttributeMixinMember where
  attributes : Attrs
  stringifier : Bool
  readonly : Bool
  type_ : AttributedType
  identifier : Str

/-- `/repo/src/mixin.rs:12-36` -/
inductive MixinMember where
  | const (m : ConstMember)
  | operation (m : OperationMixinMember)
  | attribute (m : AttributeMixinMember)
  | stringifier (m : StringifierMember)

/-- `/repo/src/namespace.rs:26-32` -/
structure OperationNamespaceMember where
  attributes : Attrs
  returnType : ReturnType
  identifier : Option Str
  args : List Argument

/-- `/repo/src/namespace.rs:34-41` -/
structure AttributeNamespaceMember where
  attributes : Attrs
  type_ : AttributedType
  identifier : Str

/-- `/repo/src/namespace.rs:12-42` -/
inductive NamespaceMember where
  | const (m : ConstMember)
  | operation (m : OperationNamespaceMember)
  | attribute (m : AttributeNamespaceMember)

/-- `/repo/src/dictionary.rs:10-17` -/
structure DictionaryMember where
  attributes : Attrs
  required : Bool
  type_ : Ty
  identifier : Str
  default : Option DefaultValue

/-- `/repo/src/lib.rs:116-241`; `Inheritance` (`/repo/src/interface.rs:13-16`) is its
identifier. -/
inductive Definition where
  | callback (attributes : Attrs) (identifier : Str) (returnType : ReturnType)
      (arguments : List Argument)
  | callbackInterface (attributes : Attrs) (identifier : Str) (inheritance : Option Str)
      (members : List InterfaceMember)
  | interface (attributes : Attrs) (identifier : Str) (inheritance : Option Str)
      (members : List InterfaceMember)
  | interfaceMixin (attributes : Attrs) (identifier : Str) (members : List MixinMember)
  | namespace (attributes : Attrs) (identifier : Str) (members : List NamespaceMember)
  | dictionary (attributes : Attrs) (identifier : Str) (inheritance : Option Str)
      (members : List DictionaryMember)
  | partialInterface (attributes : Attrs) (identifier : Str) (members : List InterfaceMember)
  | partialInterfaceMixin (attributes : Attrs) (identifier : Str) (members : List MixinMember)
  | partialDictionary (attributes : Attrs) (identifier : Str) (members : List DictionaryMember)
  | partialNamespace (attributes : Attrs) (identifier : Str) (members : List NamespaceMember)
  | enum (attributes : Attrs) (identifier : Str) (values : List Str)
  | typedef (attributes : Attrs) (type_ : AttributedType) (identifier : Str)
  | includesStatement (attributes : Attrs) (lhs rhs : Str)
  | implements (attributes : Attrs) (lhs rhs : Str)

end Verif
