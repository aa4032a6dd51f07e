import Verif.Model.Ast

/-!
# Changing the types and the names in an AST

`mapTypes f ds` is `ds` with every type `t`, at any depth, replaced by `f t`, from the inside to the outside.
`rename g ds` is `ds` with every identifier `i` replaced by `g i`.
-/

namespace Verif.Spec

/-! `f`: what to do with a type, `g`: what to do with a name -/

variable (f : Ty → Ty) (g : Str → Str)

def mapIdentifierOrString : IdentifierOrString → IdentifierOrString
  | .identifier i => .identifier (g i)
  | .string v => .string v

mutual

def mapType : Ty → Ty
  | .single t => f (.single (mapSingleType t))
  | .union ms q => f (.union (mapUnionMembers ms) q)

def mapSingleType : SingleType → SingleType
  | .any => .any
  | .nonAny t => .nonAny (mapNonAnyType t)

def mapNonAnyType : NonAnyType → NonAnyType
  | .promise r => .promise (mapReturnType r)
  | .integer t q => .integer t q
  | .floatingPoint t q => .floatingPoint t q
  | .builtin b q => .builtin b q
  | .sequence t q => .sequence (mapType t) q
  | .frozenArray t q => .frozenArray (mapType t) q
  | .record k v q => .record (mapRecordKeyType k) (mapType v) q
  | .identifier i q => .identifier (g i) q

def mapRecordKeyType : RecordKeyType → RecordKeyType
  | .byte => .byte
  | .dom => .dom
  | .usv => .usv
  | .nonAny t => .nonAny (mapNonAnyType t)

def mapUnionMember : UnionMember → UnionMember
  | .single as t => .single (mapAttributes as) (mapNonAnyType t)
  | .union ms q => .union (mapUnionMembers ms) q

def mapUnionMembers : List UnionMember → List UnionMember
  | [] => []
  | m :: ms => mapUnionMember m :: mapUnionMembers ms

def mapReturnType : ReturnType → ReturnType
  | .undefined => .undefined
  | .type t => .type (mapType t)

def mapExtAttr : ExtAttr → ExtAttr
  | .argList i args => .argList (g i) (mapArguments args)
  | .namedArgList l r args => .namedArgList (g l) (g r) (mapArguments args)
  | .identList i is => .identList (g i) (is.map g)
  | .ident l r => .ident (g l) (mapIdentifierOrString g r)
  | .wildcard l => .wildcard (g l)
  | .noArgs i => .noArgs (g i)

def mapExtAttrs : List ExtAttr → List ExtAttr
  | [] => []
  | a :: as => mapExtAttr a :: mapExtAttrs as

def mapAttributes : Option (List ExtAttr) → Option (List ExtAttr)
  | none => none
  | some as => some (mapExtAttrs as)

def mapAttributedType : AttributedType → AttributedType
  | .mk as t => .mk (mapAttributes as) (mapType t)

def mapArgument : Argument → Argument
  | .single as o t i d => .single (mapAttributes as) o (mapAttributedType t) (g i) d
  | .variadic as t i => .variadic (mapAttributes as) (mapType t) (g i)

def mapArguments : List Argument → List Argument
  | [] => []
  | a :: as => mapArgument a :: mapArguments as

end

def mapPair (p : AttributedType × AttributedType) : AttributedType × AttributedType :=
  (mapAttributedType f g p.1, mapAttributedType f g p.2)

def mapConstType : ConstType → ConstType
  | .identifier i q => .identifier (g i) q
  | t => t

def mapConst (m : ConstMember) : ConstMember := { m with
  attributes := mapAttributes f g m.attributes, constType := mapConstType g m.constType, identifier := g m.identifier }

def mapStringifier (m : StringifierMember) : StringifierMember := { m with attributes := mapAttributes f g m.attributes }

def mapInterfaceMember : InterfaceMember → InterfaceMember
  | .const m => .const (mapConst f g m)
  | .attribute m => .attribute
      { m with attributes := mapAttributes f g m.attributes, type_ := mapAttributedType f g m.type_, identifier := g m.identifier }
  | .constructor m => .constructor { m with attributes := mapAttributes f g m.attributes, args := mapArguments f g m.args }
  | .operation m => .operation { m with
      attributes := mapAttributes f g m.attributes, returnType := mapReturnType f g m.returnType,
      identifier := m.identifier.map g, args := mapArguments f g m.args }
  | .iterable (.single as t) => .iterable (.single (mapAttributes f g as) (mapAttributedType f g t))
  | .iterable (.double as p) => .iterable (.double (mapAttributes f g as) (mapPair f g p))
  | .asyncIterable (.single as t args) =>
      .asyncIterable (.single (mapAttributes f g as) (mapAttributedType f g t) (args.map (mapArguments f g)))
  | .asyncIterable (.double as p args) =>
      .asyncIterable (.double (mapAttributes f g as) (mapPair f g p) (args.map (mapArguments f g)))
  | .maplike m => .maplike { m with attributes := mapAttributes f g m.attributes, generics := mapPair f g m.generics }
  | .setlike m => .setlike { m with attributes := mapAttributes f g m.attributes, generics := mapAttributedType f g m.generics }
  | .stringifier m => .stringifier (mapStringifier f g m)

def mapMixinMember : MixinMember → MixinMember
  | .const m => .const (mapConst f g m)
  | .operation m => .operation { m with
      attributes := mapAttributes f g m.attributes, returnType := mapReturnType f g m.returnType,
      identifier := m.identifier.map g, args := mapArguments f g m.args }
  | .attribute m => .attribute
      { m with attributes := mapAttributes f g m.attributes, type_ := mapAttributedType f g m.type_, identifier := g m.identifier }
  | .stringifier m => .stringifier (mapStringifier f g m)

def mapNamespaceMember : NamespaceMember → NamespaceMember
  | .const m => .const (mapConst f g m)
  | .operation m => .operation { m with
      attributes := mapAttributes f g m.attributes, returnType := mapReturnType f g m.returnType,
      identifier := m.identifier.map g, args := mapArguments f g m.args }
  | .attribute m => .attribute
      { m with attributes := mapAttributes f g m.attributes, type_ := mapAttributedType f g m.type_, identifier := g m.identifier }

def mapDictionaryMember (m : DictionaryMember) : DictionaryMember :=
  { m with attributes := mapAttributes f g m.attributes, type_ := mapType f g m.type_, identifier := g m.identifier }

def mapDefinition : Definition → Definition
  | .callback as i r args => .callback (mapAttributes f g as) (g i) (mapReturnType f g r) (mapArguments f g args)
  | .callbackInterface as i inh ms => .callbackInterface (mapAttributes f g as) (g i) (inh.map g) (ms.map (mapInterfaceMember f g))
  | .interface as i inh ms => .interface (mapAttributes f g as) (g i) (inh.map g) (ms.map (mapInterfaceMember f g))
  | .interfaceMixin as i ms => .interfaceMixin (mapAttributes f g as) (g i) (ms.map (mapMixinMember f g))
  | .namespace as i ms => .namespace (mapAttributes f g as) (g i) (ms.map (mapNamespaceMember f g))
  | .dictionary as i inh ms => .dictionary (mapAttributes f g as) (g i) (inh.map g) (ms.map (mapDictionaryMember f g))
  | .partialInterface as i ms => .partialInterface (mapAttributes f g as) (g i) (ms.map (mapInterfaceMember f g))
  | .partialInterfaceMixin as i ms => .partialInterfaceMixin (mapAttributes f g as) (g i) (ms.map (mapMixinMember f g))
  | .partialDictionary as i ms => .partialDictionary (mapAttributes f g as) (g i) (ms.map (mapDictionaryMember f g))
  | .partialNamespace as i ms => .partialNamespace (mapAttributes f g as) (g i) (ms.map (mapNamespaceMember f g))
  | .enum as i vs => .enum (mapAttributes f g as) (g i) vs
  | .typedef as t i => .typedef (mapAttributes f g as) (mapAttributedType f g t) (g i)
  | .includesStatement as l r => .includesStatement (mapAttributes f g as) (g l) (g r)
  | .implements as l r => .implements (mapAttributes f g as) (g l) (g r)

def mapTypes (ds : List Definition) : List Definition := ds.map (mapDefinition f id)

def rename (ds : List Definition) : List Definition := ds.map (mapDefinition id g)

end Verif.Spec
