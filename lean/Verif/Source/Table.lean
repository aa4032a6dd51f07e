import Verif.Model.Parse
import Verif.Source.Check
import Verif.Source.Value

/-!
# The parsers of the source, and of the model

`Verif/Source/Text.lean` contains the lines of `/repo/src/*.rs`, `readSource` reads the declarations off them,
and `parse ds n T` is the parser that the macros of `/repo/src/macros.rs` make for the type `T`, with at most
`n` nested calls.
-/

namespace Verif.Source
open Nom

/-- The declarations in the text of the source. The text is that of `/repo/src/*.rs` (`Verif/Source/Text.lean`). -/
def readSource : Option (List Decl) := do
  let terms ← readTerms term_rs
  let dss ← [argument_rs, attribute_rs, common_rs, dictionary_rs, interface_rs, lib_rs, literal_rs, mixin_rs,
    namespace_rs, term_rs, types_rs, whitespace_rs].mapM (readFile terms)
  some dss.flatten

/-- `x` is what `T::parse` returns on `s`: the value when the number of nested calls is large enough.
`/repo/src/lib.rs:92-94`, without the bound of the model on nested calls. -/
def Returns (T : RTy) (s : Str) (x : Res Char Val) : Prop :=
  ∃ ds, readSource = some ds ∧ ∃ N, ∀ n ≥ N, parse ds n T s = x

/-- What a variant contains. `$name::$variant(x)` in `/repo/src/macros.rs:466-470`. -/
def Val.payload : Val → Val
  | .variant _ _ v => v
  | v => v

/-- The same result with another value. A device of the proofs about `/repo/src/lib.rs:92-94`. -/
def resMap {α β : Type} (f : α → β) : Res Char α → Res Char β
  | .ok r a => .ok r (f a)
  | .err e => .err e
  | .diverge => .diverge

/-- The Rust types, with their parsers in the model and the Rust values of what these return.
One constructor for each type with a declaration in `/repo/src/*.rs` or an `impl Parse` in `/repo/src/common.rs:5-26`. -/
inductive TypeOf : {α : Type} → RTy → G α → (α → Val) → Prop where
  | punct (p : Punct) : TypeOf (.path0 (punctType p)) (G.punct p) (fun _ => punctVal p)
  | kw (k : Kw) : TypeOf (.path0 (kwType k)) (G.kw k) (fun _ => kwVal k)
  -- types with parameters
  | option {α : Type} {T : RTy} {g : G α} {v : α → Val} :
      TypeOf T g v → TypeOf (.path1 c!"Option" T) (.opt g) (optVal v)
  | box {α : Type} {T : RTy} {g : G α} {v : α → Val} :
      TypeOf T g v → TypeOf (.path1 c!"Box" T) g (fun a => .box (v a))
  | vec {α : Type} {T : RTy} {g : G α} {v : α → Val} :
      TypeOf T g v → TypeOf (.path1 c!"Vec" T) (.many0 g) (fun as => .list (as.map v))
  | pair {α β : Type} {T U : RTy} {g : G α} {g' : G β} {v : α → Val} {v' : β → Val} :
      TypeOf T g v → TypeOf U g' v' →
      TypeOf (.path2 c!"(,)" T U) (do let x ← g; let y ← g'; pure (x, y)) (fun p => .pair (v p.1) (v' p.2))
  | triple {α β γ : Type} {T U W : RTy} {g : G α} {g' : G β} {g'' : G γ} {v : α → Val} {v' : β → Val} {v'' : γ → Val} :
      TypeOf T g v → TypeOf U g' v' → TypeOf W g'' v'' →
      TypeOf (.path3 c!"(,,)" T U W) (do let x ← g; let y ← g'; let z ← g''; pure (x, y, z))
        (fun p => .triple (v p.1) (v' p.2.1) (v'' p.2.2))
  | parenthesized {α : Type} {T : RTy} {g : G α} {v : α → Val} :
      TypeOf T g v → TypeOf (.path1 c!"Parenthesized" T) (G.parenthesized g) (fun a => parenVal (v a))
  | bracketed {α : Type} {T : RTy} {g : G α} {v : α → Val} :
      TypeOf T g v → TypeOf (.path1 c!"Bracketed" T) (G.bracketed g) (fun a => bracketVal (v a))
  | braced {α : Type} {T : RTy} {g : G α} {v : α → Val} :
      TypeOf T g v → TypeOf (.path1 c!"Braced" T) (G.braced g) (fun a => braceVal (v a))
  | generics {α : Type} {T : RTy} {g : G α} {v : α → Val} :
      TypeOf T g v → TypeOf (.path1 c!"Generics" T) (G.generics g) (fun a => genericsVal (v a))
  | punctuatedPunct {α : Type} {T : RTy} {g : G α} {v : α → Val} (p : Punct) :
      TypeOf T g v → TypeOf (.path2 c!"Punctuated" T (.path0 (punctType p))) (G.punctuated g (G.punct p))
        (fun as => punctuatedVal (punctVal p) (as.map v))
  | punctuatedKw {α : Type} {T : RTy} {g : G α} {v : α → Val} (k : Kw) :
      TypeOf T g v → TypeOf (.path2 c!"Punctuated" T (.path0 (kwType k))) (G.punctuated g (G.kw k))
        (fun as => punctuatedVal (kwVal k) (as.map v))
  | punctuatedNonEmptyPunct {α : Type} {T : RTy} {g : G α} {v : α → Val} (p : Punct) :
      TypeOf T g v → TypeOf (.path2 c!"PunctuatedNonEmpty" T (.path0 (punctType p)))
        (G.punctuatedNonEmpty g (G.punct p)) (fun as => punctuatedNonEmptyVal (punctVal p) (as.map v))
  | punctuatedNonEmptyKw {α : Type} {T : RTy} {g : G α} {v : α → Val} (k : Kw) :
      TypeOf T g v → TypeOf (.path2 c!"PunctuatedNonEmpty" T (.path0 (kwType k)))
        (G.punctuatedNonEmpty g (G.kw k)) (fun as => punctuatedNonEmptyVal (kwVal k) (as.map v))
  | mayBeNull {α : Type} {T : RTy} {g : G α} {v : α → Val} :
      TypeOf T g v → TypeOf (.path1 c!"MayBeNull" T) (G.mayBeNull (fun a q => (a, q)) g) (fun p => nullVal (v p.1) p.2)
  -- argument.rs
  | argumentList : TypeOf (.path0 c!"ArgumentList") G.argumentList
      (fun as => punctuatedVal (punctVal .comma) (as.map argumentVal))
  | argument : TypeOf (.path0 c!"Argument") G.argument argumentVal
  | singleArgument : TypeOf (.path0 c!"SingleArgument") G.singleArgument (fun a => (argumentVal a).payload)
  | variadicArgument : TypeOf (.path0 c!"VariadicArgument") G.variadicArgument (fun a => (argumentVal a).payload)
  -- attribute.rs
  | extendedAttributeList : TypeOf (.path0 c!"ExtendedAttributeList") G.extAttrList
      (fun as => bracketVal (punctuatedVal (punctVal .comma) (as.map extAttrVal)))
  | identifierList : TypeOf (.path0 c!"IdentifierList") G.identifierList
      (fun is => punctuatedVal (punctVal .comma) (is.map identVal))
  | extendedAttribute : TypeOf (.path0 c!"ExtendedAttribute") G.extAttr extAttrVal
  | extendedAttributeArgList :
      TypeOf (.path0 c!"ExtendedAttributeArgList") G.extAttrArgList (fun a => (extAttrVal a).payload)
  | extendedAttributeNamedArgList :
      TypeOf (.path0 c!"ExtendedAttributeNamedArgList") G.extAttrNamedArgList (fun a => (extAttrVal a).payload)
  | extendedAttributeIdentList :
      TypeOf (.path0 c!"ExtendedAttributeIdentList") G.extAttrIdentList (fun a => (extAttrVal a).payload)
  | extendedAttributeIdent :
      TypeOf (.path0 c!"ExtendedAttributeIdent") G.extAttrIdent (fun a => (extAttrVal a).payload)
  | extendedAttributeWildCard :
      TypeOf (.path0 c!"ExtendedAttributeWildCard") G.extAttrWildcard (fun a => (extAttrVal a).payload)
  | extendedAttributeNoArgs :
      TypeOf (.path0 c!"ExtendedAttributeNoArgs") G.extAttrNoArgs (fun a => (extAttrVal a).payload)
  | identifierOrString : TypeOf (.path0 c!"IdentifierOrString") G.identifierOrString identifierOrStringVal
  -- common.rs
  | identifier : TypeOf (.path0 c!"Identifier") G.ident identVal
  | default : TypeOf (.path0 c!"Default") G.default defaultVal
  -- dictionary.rs
  | dictionaryMembers : TypeOf (.path0 c!"DictionaryMembers") G.dictionaryMembers (fun ms => .list (ms.map dictionaryMemberVal))
  | dictionaryMember : TypeOf (.path0 c!"DictionaryMember") G.dictionaryMember dictionaryMemberVal
  -- interface.rs
  | interfaceMembers : TypeOf (.path0 c!"InterfaceMembers") G.interfaceMembers (fun ms => .list (ms.map interfaceMemberVal))
  | inheritance : TypeOf (.path0 c!"Inheritance") G.inheritance inheritanceVal
  | interfaceMember : TypeOf (.path0 c!"InterfaceMember") G.interfaceMember interfaceMemberVal
  | constMember : TypeOf (.path0 c!"ConstMember") G.constMember (constVal c!"ConstMember")
  | attributeInterfaceMember :
      TypeOf (.path0 c!"AttributeInterfaceMember") G.attributeInterfaceMember attributeInterfaceMemberVal
  | constructorInterfaceMember :
      TypeOf (.path0 c!"ConstructorInterfaceMember") G.constructorInterfaceMember constructorInterfaceMemberVal
  | operationInterfaceMember :
      TypeOf (.path0 c!"OperationInterfaceMember") G.operationInterfaceMember operationInterfaceMemberVal
  | iterableInterfaceMember :
      TypeOf (.path0 c!"IterableInterfaceMember") G.iterableInterfaceMember iterableInterfaceMemberVal
  | singleTypedIterable :
      TypeOf (.path0 c!"SingleTypedIterable") G.singleTypedIterable (fun m => (iterableInterfaceMemberVal m).payload)
  | doubleTypedIterable :
      TypeOf (.path0 c!"DoubleTypedIterable") G.doubleTypedIterable (fun m => (iterableInterfaceMemberVal m).payload)
  | asyncIterableInterfaceMember :
      TypeOf (.path0 c!"AsyncIterableInterfaceMember") G.asyncIterableInterfaceMember asyncIterableInterfaceMemberVal
  | singleTypedAsyncIterable : TypeOf (.path0 c!"SingleTypedAsyncIterable") G.singleTypedAsyncIterable
      (fun m => (asyncIterableInterfaceMemberVal m).payload)
  | doubleTypedAsyncIterable : TypeOf (.path0 c!"DoubleTypedAsyncIterable") G.doubleTypedAsyncIterable
      (fun m => (asyncIterableInterfaceMemberVal m).payload)
  | maplikeInterfaceMember : TypeOf (.path0 c!"MaplikeInterfaceMember") G.maplikeInterfaceMember maplikeInterfaceMemberVal
  | setlikeInterfaceMember : TypeOf (.path0 c!"SetlikeInterfaceMember") G.setlikeInterfaceMember setlikeInterfaceMemberVal
  | stringifierMember : TypeOf (.path0 c!"StringifierMember") G.stringifierMember stringifierMemberVal
  | special : TypeOf (.path0 c!"Special") G.special specialVal
  | stringifierOrInheritOrStatic : TypeOf (.path0 c!"StringifierOrInheritOrStatic") G.stringifierOrInheritOrStatic
      stringifierOrInheritOrStaticVal
  | stringifierOrStatic : TypeOf (.path0 c!"StringifierOrStatic") G.stringifierOrStatic stringifierOrStaticVal
  -- lib.rs
  | definitions : TypeOf (.path0 c!"Definitions") G.definitions (fun ds => .list (ds.map definitionVal))
  | definition : TypeOf (.path0 c!"Definition") G.definition definitionVal
  | callbackDefinition :
      TypeOf (.path0 c!"CallbackDefinition") G.callbackDefinition (fun d => (definitionVal d).payload)
  | callbackInterfaceDefinition :
      TypeOf (.path0 c!"CallbackInterfaceDefinition") G.callbackInterfaceDefinition (fun d => (definitionVal d).payload)
  | interfaceDefinition :
      TypeOf (.path0 c!"InterfaceDefinition") G.interfaceDefinition (fun d => (definitionVal d).payload)
  | interfaceMixinDefinition :
      TypeOf (.path0 c!"InterfaceMixinDefinition") G.interfaceMixinDefinition (fun d => (definitionVal d).payload)
  | namespaceDefinition :
      TypeOf (.path0 c!"NamespaceDefinition") G.namespaceDefinition (fun d => (definitionVal d).payload)
  | dictionaryDefinition :
      TypeOf (.path0 c!"DictionaryDefinition") G.dictionaryDefinition (fun d => (definitionVal d).payload)
  | partialInterfaceDefinition :
      TypeOf (.path0 c!"PartialInterfaceDefinition") G.partialInterfaceDefinition (fun d => (definitionVal d).payload)
  | partialInterfaceMixinDefinition :
      TypeOf (.path0 c!"PartialInterfaceMixinDefinition") G.partialInterfaceMixinDefinition (fun d => (definitionVal d).payload)
  | partialDictionaryDefinition :
      TypeOf (.path0 c!"PartialDictionaryDefinition") G.partialDictionaryDefinition (fun d => (definitionVal d).payload)
  | partialNamespaceDefinition :
      TypeOf (.path0 c!"PartialNamespaceDefinition") G.partialNamespaceDefinition (fun d => (definitionVal d).payload)
  | enumDefinition :
      TypeOf (.path0 c!"EnumDefinition") G.enumDefinition (fun d => (definitionVal d).payload)
  | typedefDefinition :
      TypeOf (.path0 c!"TypedefDefinition") G.typedefDefinition (fun d => (definitionVal d).payload)
  | includesStatementDefinition :
      TypeOf (.path0 c!"IncludesStatementDefinition") G.includesStatementDefinition (fun d => (definitionVal d).payload)
  | implementsDefinition :
      TypeOf (.path0 c!"ImplementsDefinition") G.implementsDefinition (fun d => (definitionVal d).payload)
  | enumValueList : TypeOf (.path0 c!"EnumValueList") G.enumValueList
      (fun vs => punctuatedNonEmptyVal (punctVal .comma) (vs.map stringVal))
  -- literal.rs
  | integerLit : TypeOf (.path0 c!"IntegerLit") G.integerLit integerLitVal
  | decLit : TypeOf (.path0 c!"DecLit") (.leaf .dec) decVal
  | hexLit : TypeOf (.path0 c!"HexLit") (.leaf .hex) hexVal
  | octLit : TypeOf (.path0 c!"OctLit") (.leaf .oct) octVal
  | stringLit : TypeOf (.path0 c!"StringLit") G.stringLit stringVal
  | defaultValue : TypeOf (.path0 c!"DefaultValue") G.defaultValue defaultValueVal
  | emptyArrayLit : TypeOf (.path0 c!"EmptyArrayLit") G.emptyArrayLit (fun _ => emptyArrayVal)
  | emptyDictionaryLit : TypeOf (.path0 c!"EmptyDictionaryLit") G.emptyDictionaryLit (fun _ => emptyDictionaryVal)
  | constValue : TypeOf (.path0 c!"ConstValue") G.constValue constValueVal
  | booleanLit : TypeOf (.path0 c!"BooleanLit") G.booleanLit booleanVal
  | floatLit : TypeOf (.path0 c!"FloatLit") G.floatLit floatLitVal
  | floatValueLit : TypeOf (.path0 c!"FloatValueLit") (.leaf .float) floatValueVal
  -- mixin.rs
  | mixinMembers : TypeOf (.path0 c!"MixinMembers") G.mixinMembers (fun ms => .list (ms.map mixinMemberVal))
  | mixinMember : TypeOf (.path0 c!"MixinMember") G.mixinMember mixinMemberVal
  | operationMixinMember : TypeOf (.path0 c!"OperationMixinMember") G.operationMixinMember operationMixinMemberVal
  | attributeMixinMember : TypeOf (.path0 c!"AttributeMixinMember") G.attributeMixinMember attributeMixinMemberVal
  -- namespace.rs
  | namespaceMembers : TypeOf (.path0 c!"NamespaceMembers") G.namespaceMembers (fun ms => .list (ms.map namespaceMemberVal))
  | namespaceMember : TypeOf (.path0 c!"NamespaceMember") G.namespaceMember namespaceMemberVal
  | constNamespaceMember : TypeOf (.path0 c!"ConstNamespaceMember") G.constMember (constVal c!"ConstNamespaceMember")
  | operationNamespaceMember :
      TypeOf (.path0 c!"OperationNamespaceMember") G.operationNamespaceMember operationNamespaceMemberVal
  | attributeNamespaceMember :
      TypeOf (.path0 c!"AttributeNamespaceMember") G.attributeNamespaceMember attributeNamespaceMemberVal
  -- types.rs
  | unionType : TypeOf (.path0 c!"UnionType") G.unionType
      (fun ms => parenVal (punctuatedVal (kwVal .or) (ms.map unionMemberVal)))
  | type : TypeOf (.path0 c!"Type") G.type typeVal
  | singleType : TypeOf (.path0 c!"SingleType") G.singleType singleTypeVal
  | nonAnyType : TypeOf (.path0 c!"NonAnyType") G.nonAnyType nonAnyTypeVal
  | sequenceType : TypeOf (.path0 c!"SequenceType") G.sequenceType (fun t => .struct c!"SequenceType"
      [(c!"sequence", kwVal .sequence), (c!"generics", genericsVal (.box (typeVal t)))])
  | frozenArrayType : TypeOf (.path0 c!"FrozenArrayType") G.frozenArrayType (fun t => .struct c!"FrozenArrayType"
      [(c!"frozen_array", kwVal .frozenArray), (c!"generics", genericsVal (.box (typeVal t)))])
  | promiseType : TypeOf (.path0 c!"PromiseType") G.promiseType (fun t => (nonAnyTypeVal t).payload)
  | integerType : TypeOf (.path0 c!"IntegerType") G.integerType integerTypeVal
  | longLongType : TypeOf (.path0 c!"LongLongType") G.longLongType (fun t => (integerTypeVal t).payload)
  | longType : TypeOf (.path0 c!"LongType") G.longType (fun t => (integerTypeVal t).payload)
  | shortType : TypeOf (.path0 c!"ShortType") G.shortType (fun t => (integerTypeVal t).payload)
  | floatingPointType : TypeOf (.path0 c!"FloatingPointType") G.floatingPointType floatingPointTypeVal
  | floatType : TypeOf (.path0 c!"FloatType") G.floatType (fun t => (floatingPointTypeVal t).payload)
  | doubleType : TypeOf (.path0 c!"DoubleType") G.doubleType (fun t => (floatingPointTypeVal t).payload)
  | recordType : TypeOf (.path0 c!"RecordType") G.recordType (fun kv => .struct c!"RecordType"
      [(c!"record", kwVal .record), (c!"generics", genericsVal
        (.triple (.box (recordKeyTypeVal kv.1)) (punctVal .comma) (.box (typeVal kv.2))))])
  | recordKeyType : TypeOf (.path0 c!"RecordKeyType") G.recordKeyType recordKeyTypeVal
  | unionMemberType : TypeOf (.path0 c!"UnionMemberType") G.unionMemberType unionMemberVal
  | constType : TypeOf (.path0 c!"ConstType") G.constType constTypeVal
  | returnType : TypeOf (.path0 c!"ReturnType") G.returnType returnTypeVal
  | attributedType : TypeOf (.path0 c!"AttributedType") G.attributedType attributedTypeVal
  | attributedNonAnyType :
      TypeOf (.path0 c!"AttributedNonAnyType") G.attributedNonAnyType (fun m => (unionMemberVal m).payload)

/-! ## The types that can be written down -/

/-- A type is well formed if its name is declared with as many parameters as it has arguments. The separators
of lists are terminals. `sp` is a function, not a type. `/repo/src/common.rs:31-74` and `/repo/src/types.rs:69`. -/
def WellFormed (ds : List Decl) : RTy → Prop
  | .path0 n => n ≠ c!"sp" ∧ ∃ d ∈ ds, d.name = n ∧ d.params.length = 0
  | .path1 n t => (∃ d ∈ ds, d.name = n ∧ d.params.length = 1) ∧ WellFormed ds t
  | .path2 n t u => (∃ d ∈ ds, d.name = n ∧ d.params.length = 2) ∧ WellFormed ds t ∧ WellFormed ds u ∧
    (n ≠ c!"(,)" → (∃ p, u = .path0 (punctType p)) ∨ ∃ k, u = .path0 (kwType k))
  | .path3 n t u v => (∃ d ∈ ds, d.name = n ∧ d.params.length = 3) ∧ WellFormed ds t ∧ WellFormed ds u ∧ WellFormed ds v

end Verif.Source
