import Verif.Model.Parse

/-!
# The types implementing `Parse`

`IsType g b`: `g` is the grammar of a type of the crate that implements `Parse`
(`/repo/src/lib.rs:92-94`): one constructor per terminal of `/repo/src/term.rs`, per
struct and enum declared with `ast_types!`, and per generic implementation. `b` is `false`
for `Option<_>`, `Vec<_>`, `Punctuated<_, _>` and for what is built from these alone by tuples
or `MayBeNull`. The concrete types that occur only inlined in the model's AST (for instance
`SequenceType`) are represented by the grammar of their fields.
-/

namespace Verif

/-- `impl Parse for ..`, `/repo/src/lib.rs:92-94`; the lines of each type are those of its grammar in
`Verif/Model/Grammar.lean`. -/
inductive IsType : {α : Type} → G α → Bool → Prop where
  /-- the structs of `/repo/src/term.rs:55-106` -/
  | punct (p : Punct) : IsType (G.punct p) true
  /-- the structs of `/repo/src/term.rs:108-312` -/
  | kw (k : Kw) : IsType (G.kw k) true
  /-- `Identifier` -/
  | ident : IsType G.ident true
  /-- `DecLit` -/
  | dec : IsType (.leaf .dec) true
  /-- `HexLit` -/
  | hex : IsType (.leaf .hex) true
  /-- `OctLit` -/
  | oct : IsType (.leaf .oct) true
  /-- `FloatValueLit` -/
  | float : IsType (.leaf .float) true
  /-- `Option<T>`, `/repo/src/common.rs:5-7` -/
  | option {α : Type} {g : G α} {b : Bool} (h : IsType g b) : IsType (.opt g) false
  /-- `Vec<T>`, `/repo/src/common.rs:14-16` -/
  | vec {α : Type} {g : G α} {b : Bool} (h : IsType g b) : IsType (.many0 g) false
  /-- `(T, U)`, `/repo/src/common.rs:18-20` -/
  | pair {α β : Type} {g : G α} {h : G β} {b b' : Bool} (hg : IsType g b) (hh : IsType h b') :
      IsType (do let t ← g; let u ← h; pure (t, u)) (b || b')
  /-- `(T, U, V)`, `/repo/src/common.rs:22-26` -/
  | triple {α β γ : Type} {g : G α} {h : G β} {i : G γ} {b b' b'' : Bool} (hg : IsType g b)
      (hh : IsType h b') (hi : IsType i b'') :
      IsType (do let t ← g; let u ← h; let v ← i; pure (t, u, v)) (b || b' || b'')
  /-- `Parenthesized<T>` -/
  | parenthesized {α : Type} {g : G α} {b : Bool} (h : IsType g b) : IsType g.parenthesized true
  /-- `Bracketed<T>` -/
  | bracketed {α : Type} {g : G α} {b : Bool} (h : IsType g b) : IsType g.bracketed true
  /-- `Braced<T>` -/
  | braced {α : Type} {g : G α} {b : Bool} (h : IsType g b) : IsType g.braced true
  /-- `Generics<T>` -/
  | generics {α : Type} {g : G α} {b : Bool} (h : IsType g b) : IsType g.generics true
  /-- `Punctuated<T, S>` -/
  | punctuated {α β : Type} {g : G α} {sep : G β} {b b' : Bool} (h : IsType g b)
      (hs : IsType sep b') : IsType (g.punctuated sep) false
  /-- `PunctuatedNonEmpty<T, S>` -/
  | punctuatedNonEmpty {α β : Type} {g : G α} {sep : G β} {b b' : Bool} (h : IsType g b)
      (hs : IsType sep b') : IsType (g.punctuatedNonEmpty sep) true
  /-- `MayBeNull<T>`, `/repo/src/types.rs:69-72` -/
  | mayBeNull {α : Type} {g : G α} {b : Bool} (h : IsType g b) :
      IsType (g.mayBeNull Prod.mk) b
  | integerLit : IsType G.integerLit true
  | floatLit : IsType G.floatLit true
  | booleanLit : IsType G.booleanLit true
  | stringLit : IsType G.stringLit true
  | emptyArrayLit : IsType G.emptyArrayLit true
  | emptyDictionaryLit : IsType G.emptyDictionaryLit true
  | defaultValue : IsType G.defaultValue true
  | constValue : IsType G.constValue true
  | default : IsType G.default true
  | identifierOrString : IsType G.identifierOrString true
  | extAttrArgList : IsType G.extAttrArgList true
  | extAttrNamedArgList : IsType G.extAttrNamedArgList true
  | extAttrIdentList : IsType G.extAttrIdentList true
  | extAttrIdent : IsType G.extAttrIdent true
  | extAttrWildcard : IsType G.extAttrWildcard true
  | extAttrNoArgs : IsType G.extAttrNoArgs true
  | extAttr : IsType G.extAttr true
  | longLongType : IsType G.longLongType true
  | longType : IsType G.longType true
  | shortType : IsType G.shortType true
  | integerType : IsType G.integerType true
  | floatType : IsType G.floatType true
  | doubleType : IsType G.doubleType true
  | floatingPointType : IsType G.floatingPointType true
  | promiseType : IsType G.promiseType true
  | sequenceType : IsType G.sequenceType true
  | frozenArrayType : IsType G.frozenArrayType true
  | recordType : IsType G.recordType true
  | recordKeyType : IsType G.recordKeyType true
  | nonAnyType : IsType G.nonAnyType true
  | singleType : IsType G.singleType true
  | type : IsType G.type true
  | attributedNonAnyType : IsType G.attributedNonAnyType true
  | unionMemberType : IsType G.unionMemberType true
  | constType : IsType G.constType true
  | returnType : IsType G.returnType true
  | attributedType : IsType G.attributedType true
  | singleArgument : IsType G.singleArgument true
  | variadicArgument : IsType G.variadicArgument true
  | argument : IsType G.argument true
  | inheritance : IsType G.inheritance true
  | constMember : IsType G.constMember true
  | stringifierOrInheritOrStatic : IsType G.stringifierOrInheritOrStatic true
  | stringifierOrStatic : IsType G.stringifierOrStatic true
  | special : IsType G.special true
  | attributeInterfaceMember : IsType G.attributeInterfaceMember true
  | constructorInterfaceMember : IsType G.constructorInterfaceMember true
  | operationInterfaceMember : IsType G.operationInterfaceMember true
  | singleTypedIterable : IsType G.singleTypedIterable true
  | doubleTypedIterable : IsType G.doubleTypedIterable true
  | iterableInterfaceMember : IsType G.iterableInterfaceMember true
  | singleTypedAsyncIterable : IsType G.singleTypedAsyncIterable true
  | doubleTypedAsyncIterable : IsType G.doubleTypedAsyncIterable true
  | asyncIterableInterfaceMember : IsType G.asyncIterableInterfaceMember true
  | maplikeInterfaceMember : IsType G.maplikeInterfaceMember true
  | setlikeInterfaceMember : IsType G.setlikeInterfaceMember true
  | stringifierMember : IsType G.stringifierMember true
  | interfaceMember : IsType G.interfaceMember true
  | operationMixinMember : IsType G.operationMixinMember true
  | attributeMixinMember : IsType G.attributeMixinMember true
  | mixinMember : IsType G.mixinMember true
  | operationNamespaceMember : IsType G.operationNamespaceMember true
  | attributeNamespaceMember : IsType G.attributeNamespaceMember true
  | namespaceMember : IsType G.namespaceMember true
  | dictionaryMember : IsType G.dictionaryMember true
  | callbackDefinition : IsType G.callbackDefinition true
  | callbackInterfaceDefinition : IsType G.callbackInterfaceDefinition true
  | interfaceDefinition : IsType G.interfaceDefinition true
  | interfaceMixinDefinition : IsType G.interfaceMixinDefinition true
  | namespaceDefinition : IsType G.namespaceDefinition true
  | dictionaryDefinition : IsType G.dictionaryDefinition true
  | partialInterfaceDefinition : IsType G.partialInterfaceDefinition true
  | partialInterfaceMixinDefinition : IsType G.partialInterfaceMixinDefinition true
  | partialDictionaryDefinition : IsType G.partialDictionaryDefinition true
  | partialNamespaceDefinition : IsType G.partialNamespaceDefinition true
  | enumDefinition : IsType G.enumDefinition true
  | typedefDefinition : IsType G.typedefDefinition true
  | includesStatementDefinition : IsType G.includesStatementDefinition true
  | implementsDefinition : IsType G.implementsDefinition true
  | definition : IsType G.definition true

end Verif
