import Verif.Model.Ast

/-!
# The names in an AST

`names`: the identifiers, without the underscore that may be written before them, in the order in which they are written.
-/

namespace Verif.Spec

def namesIdentifierOrString : IdentifierOrString → List Str
  | .identifier i => [i]
  | .string _ => []

mutual

def namesType : Ty → List Str
  | .single t => namesSingleType t
  | .union ms _ => namesUnionMembers ms

def namesSingleType : SingleType → List Str
  | .any => []
  | .nonAny t => namesNonAnyType t

def namesNonAnyType : NonAnyType → List Str
  | .promise r => namesReturnType r
  | .integer _ _ => []
  | .floatingPoint _ _ => []
  | .builtin _ _ => []
  | .sequence t _ => namesType t
  | .frozenArray t _ => namesType t
  | .record k v _ => namesRecordKeyType k ++ namesType v
  | .identifier i _ => [i]

def namesRecordKeyType : RecordKeyType → List Str
  | .byte => []
  | .dom => []
  | .usv => []
  | .nonAny t => namesNonAnyType t

def namesUnionMember : UnionMember → List Str
  | .single as t => namesAttributes as ++ namesNonAnyType t
  | .union ms _ => namesUnionMembers ms

def namesUnionMembers : List UnionMember → List Str
  | [] => []
  | m :: ms => namesUnionMember m ++ namesUnionMembers ms

def namesReturnType : ReturnType → List Str
  | .undefined => []
  | .type t => namesType t

def namesExtAttr : ExtAttr → List Str
  | .argList i args => [i] ++ namesArguments args
  | .namedArgList l r args => [l] ++ [r] ++ namesArguments args
  | .identList i is => [i] ++ is
  | .ident l r => [l] ++ namesIdentifierOrString r
  | .wildcard l => [l]
  | .noArgs i => [i]

def namesExtAttrs : List ExtAttr → List Str
  | [] => []
  | a :: as => namesExtAttr a ++ namesExtAttrs as

def namesAttributes : Option (List ExtAttr) → List Str
  | none => []
  | some as => namesExtAttrs as

def namesAttributedType : AttributedType → List Str
  | .mk as t => namesAttributes as ++ namesType t

def namesArgument : Argument → List Str
  | .single as _ t i _ => namesAttributes as ++ namesAttributedType t ++ [i]
  | .variadic as t i => namesAttributes as ++ namesType t ++ [i]

def namesArguments : List Argument → List Str
  | [] => []
  | a :: as => namesArgument a ++ namesArguments as

end

def namesOptArguments : Option (List Argument) → List Str
  | none => []
  | some as => namesArguments as

def namesConstType : ConstType → List Str
  | .identifier i _ => [i]
  | _ => []

def namesConst (m : ConstMember) : List Str :=
  namesAttributes m.attributes ++ namesConstType m.constType ++ [m.identifier]

def namesOperation (as : Attrs) (r : ReturnType) (i : Option Str) (args : List Argument) : List Str :=
  namesAttributes as ++ namesReturnType r ++ i.toList ++ namesArguments args

def namesAttribute (as : Attrs) (t : AttributedType) (i : Str) : List Str :=
  namesAttributes as ++ namesAttributedType t ++ [i]

def namesTypePair (p : AttributedType × AttributedType) : List Str :=
  namesAttributedType p.1 ++ namesAttributedType p.2

def namesInterfaceMember : InterfaceMember → List Str
  | .const m => namesConst m
  | .attribute m => namesAttribute m.attributes m.type_ m.identifier
  | .constructor m => namesAttributes m.attributes ++ namesArguments m.args
  | .operation m => namesOperation m.attributes m.returnType m.identifier m.args
  | .iterable (.single as t) => namesAttributes as ++ namesAttributedType t
  | .iterable (.double as p) => namesAttributes as ++ namesTypePair p
  | .asyncIterable (.single as t args) => namesAttributes as ++ namesAttributedType t ++ namesOptArguments args
  | .asyncIterable (.double as p args) => namesAttributes as ++ namesTypePair p ++ namesOptArguments args
  | .maplike m => namesAttributes m.attributes ++ namesTypePair m.generics
  | .setlike m => namesAttributes m.attributes ++ namesAttributedType m.generics
  | .stringifier m => namesAttributes m.attributes

def namesMixinMember : MixinMember → List Str
  | .const m => namesConst m
  | .operation m => namesOperation m.attributes m.returnType m.identifier m.args
  | .attribute m => namesAttribute m.attributes m.type_ m.identifier
  | .stringifier m => namesAttributes m.attributes

def namesNamespaceMember : NamespaceMember → List Str
  | .const m => namesConst m
  | .operation m => namesOperation m.attributes m.returnType m.identifier m.args
  | .attribute m => namesAttribute m.attributes m.type_ m.identifier

def namesDictionaryMember (m : DictionaryMember) : List Str :=
  namesAttributes m.attributes ++ namesType m.type_ ++ [m.identifier]

/-- `as`: the attributes, `i`: the name, `inh`: the base -/
def namesBody {α : Type} (f : α → List Str) (as : Attrs) (i : Str) (inh : Option Str) (ms : List α) : List Str :=
  namesAttributes as ++ [i] ++ inh.toList ++ ms.flatMap f

def namesDefinition : Definition → List Str
  | .callback as i r args => namesAttributes as ++ [i] ++ namesReturnType r ++ namesArguments args
  | .callbackInterface as i inh ms => namesBody namesInterfaceMember as i inh ms
  | .interface as i inh ms => namesBody namesInterfaceMember as i inh ms
  | .interfaceMixin as i ms => namesBody namesMixinMember as i none ms
  | .namespace as i ms => namesBody namesNamespaceMember as i none ms
  | .dictionary as i inh ms => namesBody namesDictionaryMember as i inh ms
  | .partialInterface as i ms => namesBody namesInterfaceMember as i none ms
  | .partialInterfaceMixin as i ms => namesBody namesMixinMember as i none ms
  | .partialDictionary as i ms => namesBody namesDictionaryMember as i none ms
  | .partialNamespace as i ms => namesBody namesNamespaceMember as i none ms
  | .enum as i _ => namesAttributes as ++ [i]
  | .typedef as t i => namesAttribute as t i
  | .includesStatement as l r => namesAttributes as ++ [l] ++ [r]
  | .implements as l r => namesAttributes as ++ [l] ++ [r]

def names (ds : List Definition) : List Str := ds.flatMap namesDefinition

end Verif.Spec
