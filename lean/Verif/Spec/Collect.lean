import Verif.Model.Ast

/-!
# What an AST contains

`strings`: the identifiers and literal texts, in the order in which they are written.
`args`: the arguments, at any depth.
-/

namespace Verif.Spec

/-- `vs` occur in `s` as disjoint contiguous slices, in this order. -/
inductive InOrder : List Str → Str → Prop where
  | nil {s : Str} : InOrder [] s
  | cons {v : Str} {vs : List Str} {a b : Str} (h : InOrder vs b) : InOrder (v :: vs) (a ++ v ++ b)

/-! ## Strings -/

def stringsInteger : IntegerLit → List Str
  | .dec v => [v]
  | .hex v => [v]
  | .oct v => [v]

def stringsFloat : FloatLit → List Str
  | .value v => [v]
  | _ => []

def stringsDefaultValue : DefaultValue → List Str
  | .float f => stringsFloat f
  | .integer i => stringsInteger i
  | .string v => [v]
  | _ => []

def stringsConstValue : ConstValue → List Str
  | .float f => stringsFloat f
  | .integer i => stringsInteger i
  | _ => []

def stringsDefault : Option DefaultValue → List Str
  | none => []
  | some v => stringsDefaultValue v

def stringsIdentifierOrString : IdentifierOrString → List Str
  | .identifier i => [i]
  | .string v => [v]

mutual

def stringsType : Ty → List Str
  | .single t => stringsSingleType t
  | .union ms _ => stringsUnionMembers ms

def stringsSingleType : SingleType → List Str
  | .any => []
  | .nonAny t => stringsNonAnyType t

def stringsNonAnyType : NonAnyType → List Str
  | .promise r => stringsReturnType r
  | .integer _ _ => []
  | .floatingPoint _ _ => []
  | .builtin _ _ => []
  | .sequence t _ => stringsType t
  | .frozenArray t _ => stringsType t
  | .record k v _ => stringsRecordKeyType k ++ stringsType v
  | .identifier i _ => [i]

def stringsRecordKeyType : RecordKeyType → List Str
  | .byte => []
  | .dom => []
  | .usv => []
  | .nonAny t => stringsNonAnyType t

def stringsUnionMember : UnionMember → List Str
  | .single as t => stringsAttributes as ++ stringsNonAnyType t
  | .union ms _ => stringsUnionMembers ms

def stringsUnionMembers : List UnionMember → List Str
  | [] => []
  | m :: ms => stringsUnionMember m ++ stringsUnionMembers ms

def stringsReturnType : ReturnType → List Str
  | .undefined => []
  | .type t => stringsType t

def stringsExtAttr : ExtAttr → List Str
  | .argList i args => i :: stringsArguments args
  | .namedArgList l r args => l :: r :: stringsArguments args
  | .identList i is => i :: is
  | .ident l r => l :: stringsIdentifierOrString r
  | .wildcard l => [l]
  | .noArgs i => [i]

def stringsExtAttrs : List ExtAttr → List Str
  | [] => []
  | a :: as => stringsExtAttr a ++ stringsExtAttrs as

def stringsAttributes : Option (List ExtAttr) → List Str
  | none => []
  | some as => stringsExtAttrs as

def stringsAttributedType : AttributedType → List Str
  | .mk as t => stringsAttributes as ++ stringsType t

def stringsArgument : Argument → List Str
  | .single as _ t i d => stringsAttributes as ++ stringsAttributedType t ++ [i] ++ stringsDefault d
  | .variadic as t i => stringsAttributes as ++ stringsType t ++ [i]

def stringsArguments : List Argument → List Str
  | [] => []
  | a :: as => stringsArgument a ++ stringsArguments as

end

def stringsOptArguments : Option (List Argument) → List Str
  | none => []
  | some as => stringsArguments as

def stringsConstType : ConstType → List Str
  | .identifier i _ => [i]
  | _ => []

def stringsConst (m : ConstMember) : List Str :=
  stringsAttributes m.attributes ++ stringsConstType m.constType ++ [m.identifier] ++
    stringsConstValue m.constValue

def stringsOperation (as : Attrs) (r : ReturnType) (i : Option Str) (args : List Argument) : List Str :=
  stringsAttributes as ++ stringsReturnType r ++ i.toList ++ stringsArguments args

def stringsAttribute (as : Attrs) (t : AttributedType) (i : Str) : List Str :=
  stringsAttributes as ++ stringsAttributedType t ++ [i]

def stringsTypePair (p : AttributedType × AttributedType) : List Str :=
  stringsAttributedType p.1 ++ stringsAttributedType p.2

def stringsInterfaceMember : InterfaceMember → List Str
  | .const m => stringsConst m
  | .attribute m => stringsAttribute m.attributes m.type_ m.identifier
  | .constructor m => stringsAttributes m.attributes ++ stringsArguments m.args
  | .operation m => stringsOperation m.attributes m.returnType m.identifier m.args
  | .iterable (.single as t) => stringsAttributes as ++ stringsAttributedType t
  | .iterable (.double as p) => stringsAttributes as ++ stringsTypePair p
  | .asyncIterable (.single as t args) => stringsAttributes as ++ stringsAttributedType t ++ stringsOptArguments args
  | .asyncIterable (.double as p args) => stringsAttributes as ++ stringsTypePair p ++ stringsOptArguments args
  | .maplike m => stringsAttributes m.attributes ++ stringsTypePair m.generics
  | .setlike m => stringsAttributes m.attributes ++ stringsAttributedType m.generics
  | .stringifier m => stringsAttributes m.attributes

def stringsMixinMember : MixinMember → List Str
  | .const m => stringsConst m
  | .operation m => stringsOperation m.attributes m.returnType m.identifier m.args
  | .attribute m => stringsAttribute m.attributes m.type_ m.identifier
  | .stringifier m => stringsAttributes m.attributes

def stringsNamespaceMember : NamespaceMember → List Str
  | .const m => stringsConst m
  | .operation m => stringsOperation m.attributes m.returnType m.identifier m.args
  | .attribute m => stringsAttribute m.attributes m.type_ m.identifier

def stringsDictionaryMember (m : DictionaryMember) : List Str :=
  stringsAttributes m.attributes ++ stringsType m.type_ ++ [m.identifier] ++ stringsDefault m.default

/-- `as`: the attributes, `i`: the name, `inh`: the base -/
def stringsBody {α : Type} (f : α → List Str) (as : Attrs) (i : Str) (inh : Option Str) (ms : List α) : List Str :=
  stringsAttributes as ++ [i] ++ inh.toList ++ ms.flatMap f

def stringsDefinition : Definition → List Str
  | .callback as i r args => stringsAttributes as ++ [i] ++ stringsReturnType r ++ stringsArguments args
  | .callbackInterface as i inh ms => stringsBody stringsInterfaceMember as i inh ms
  | .interface as i inh ms => stringsBody stringsInterfaceMember as i inh ms
  | .interfaceMixin as i ms => stringsBody stringsMixinMember as i none ms
  | .namespace as i ms => stringsBody stringsNamespaceMember as i none ms
  | .dictionary as i inh ms => stringsBody stringsDictionaryMember as i inh ms
  | .partialInterface as i ms => stringsBody stringsInterfaceMember as i none ms
  | .partialInterfaceMixin as i ms => stringsBody stringsMixinMember as i none ms
  | .partialDictionary as i ms => stringsBody stringsDictionaryMember as i none ms
  | .partialNamespace as i ms => stringsBody stringsNamespaceMember as i none ms
  | .enum as i vs => stringsAttributes as ++ [i] ++ vs
  | .typedef as t i => stringsAttribute as t i
  | .includesStatement as l r => stringsAttributes as ++ [l, r]
  | .implements as l r => stringsAttributes as ++ [l, r]

def strings (ds : List Definition) : List Str := ds.flatMap stringsDefinition

/-! ## Arguments -/

mutual

def argsType : Ty → List Argument
  | .single t => argsSingleType t
  | .union ms _ => argsUnionMembers ms

def argsSingleType : SingleType → List Argument
  | .any => []
  | .nonAny t => argsNonAnyType t

def argsNonAnyType : NonAnyType → List Argument
  | .promise r => argsReturnType r
  | .integer _ _ => []
  | .floatingPoint _ _ => []
  | .builtin _ _ => []
  | .sequence t _ => argsType t
  | .frozenArray t _ => argsType t
  | .record k v _ => argsRecordKeyType k ++ argsType v
  | .identifier _ _ => []

def argsRecordKeyType : RecordKeyType → List Argument
  | .byte => []
  | .dom => []
  | .usv => []
  | .nonAny t => argsNonAnyType t

def argsUnionMember : UnionMember → List Argument
  | .single as t => argsAttributes as ++ argsNonAnyType t
  | .union ms _ => argsUnionMembers ms

def argsUnionMembers : List UnionMember → List Argument
  | [] => []
  | m :: ms => argsUnionMember m ++ argsUnionMembers ms

def argsReturnType : ReturnType → List Argument
  | .undefined => []
  | .type t => argsType t

def argsExtAttr : ExtAttr → List Argument
  | .argList _ args => argsArguments args
  | .namedArgList _ _ args => argsArguments args
  | .identList _ _ => []
  | .ident _ _ => []
  | .wildcard _ => []
  | .noArgs _ => []

def argsExtAttrs : List ExtAttr → List Argument
  | [] => []
  | a :: as => argsExtAttr a ++ argsExtAttrs as

def argsAttributes : Option (List ExtAttr) → List Argument
  | none => []
  | some as => argsExtAttrs as

def argsAttributedType : AttributedType → List Argument
  | .mk as t => argsAttributes as ++ argsType t

def argsArgument : Argument → List Argument
  | .single as opt t i d => .single as opt t i d :: argsAttributes as ++ argsAttributedType t
  | .variadic as t i => .variadic as t i :: argsAttributes as ++ argsType t

def argsArguments : List Argument → List Argument
  | [] => []
  | a :: as => argsArgument a ++ argsArguments as

end

def argsOptArguments : Option (List Argument) → List Argument
  | none => []
  | some as => argsArguments as

def argsOperation (as : Attrs) (r : ReturnType) (args : List Argument) : List Argument :=
  argsAttributes as ++ argsReturnType r ++ argsArguments args

def argsAttribute (as : Attrs) (t : AttributedType) : List Argument := argsAttributes as ++ argsAttributedType t

def argsTypePair (p : AttributedType × AttributedType) : List Argument :=
  argsAttributedType p.1 ++ argsAttributedType p.2

def argsInterfaceMember : InterfaceMember → List Argument
  | .const m => argsAttributes m.attributes
  | .attribute m => argsAttribute m.attributes m.type_
  | .constructor m => argsAttributes m.attributes ++ argsArguments m.args
  | .operation m => argsOperation m.attributes m.returnType m.args
  | .iterable (.single as t) => argsAttribute as t
  | .iterable (.double as p) => argsAttributes as ++ argsTypePair p
  | .asyncIterable (.single as t args) => argsAttribute as t ++ argsOptArguments args
  | .asyncIterable (.double as p args) => argsAttributes as ++ argsTypePair p ++ argsOptArguments args
  | .maplike m => argsAttributes m.attributes ++ argsTypePair m.generics
  | .setlike m => argsAttribute m.attributes m.generics
  | .stringifier m => argsAttributes m.attributes

def argsMixinMember : MixinMember → List Argument
  | .const m => argsAttributes m.attributes
  | .operation m => argsOperation m.attributes m.returnType m.args
  | .attribute m => argsAttribute m.attributes m.type_
  | .stringifier m => argsAttributes m.attributes

def argsNamespaceMember : NamespaceMember → List Argument
  | .const m => argsAttributes m.attributes
  | .operation m => argsOperation m.attributes m.returnType m.args
  | .attribute m => argsAttribute m.attributes m.type_

def argsDictionaryMember (m : DictionaryMember) : List Argument :=
  argsAttributes m.attributes ++ argsType m.type_

def argsDefinition : Definition → List Argument
  | .callback as _ r args => argsOperation as r args
  | .callbackInterface as _ _ ms => argsAttributes as ++ ms.flatMap argsInterfaceMember
  | .interface as _ _ ms => argsAttributes as ++ ms.flatMap argsInterfaceMember
  | .interfaceMixin as _ ms => argsAttributes as ++ ms.flatMap argsMixinMember
  | .namespace as _ ms => argsAttributes as ++ ms.flatMap argsNamespaceMember
  | .dictionary as _ _ ms => argsAttributes as ++ ms.flatMap argsDictionaryMember
  | .partialInterface as _ ms => argsAttributes as ++ ms.flatMap argsInterfaceMember
  | .partialInterfaceMixin as _ ms => argsAttributes as ++ ms.flatMap argsMixinMember
  | .partialDictionary as _ ms => argsAttributes as ++ ms.flatMap argsDictionaryMember
  | .partialNamespace as _ ms => argsAttributes as ++ ms.flatMap argsNamespaceMember
  | .enum as _ _ => argsAttributes as
  | .typedef as t _ => argsAttribute as t
  | .includesStatement as _ _ => argsAttributes as
  | .implements as _ _ => argsAttributes as

def args (ds : List Definition) : List Argument := ds.flatMap argsDefinition

end Verif.Spec
