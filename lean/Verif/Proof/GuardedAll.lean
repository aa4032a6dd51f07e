import Verif.Proof.Guarded

/-! # Every grammar expression of the model is guarded -/

namespace Verif
open Nom

variable {α β : Type}

set_option synthInstance.maxSize 2000

namespace Guarded

instance {c : Bool} {a : α} : Guarded c (pure a : G α) false := .ret
instance {c : Bool} {l : Leaf α} : Guarded c (.leaf l) true := .leaf
instance {c : Bool} {p : Punct} : Guarded c (G.punct p) true := .leaf
instance {c : Bool} {k : Kw} : Guarded c (G.kw k) true := .leaf
instance {c : Bool} : Guarded c G.ident true := .leaf
instance {c st' : Bool} {g : G α} {f : α → G β} [h : Guarded c g true]
    [h' : ∀ a, Guarded true (f a) st'] : Guarded c (g >>= f) true := .bindT h h'
instance {c st : Bool} {g : G α} {f : α → G β} [h : Guarded c g false]
    [h' : ∀ a, Guarded c (f a) st] : Guarded c (g >>= f) st := .bindF h h'
instance {n : NT α} : Guarded true (.call n) true := .call
instance {c st : Bool} {g : G α} [h : Guarded c g st] : Guarded c (.opt g) false := .opt h
instance {c st : Bool} {g : G α} [h : Guarded c g st] : Guarded c (.many0 g) false := .many0 h

instance alts1 {c st : Bool} {g : G α} [h : Guarded c g st] : Guarded c (G.alts [g]) st :=
  .orElse h .altEnd
instance alts2 {c st : Bool} {g g' : G α} {gs : List (G α)} [h : Guarded c g st]
    [h' : Guarded c (G.alts (g' :: gs)) st] : Guarded c (G.alts (g :: g' :: gs)) st :=
  .orElse h h'

instance {c st : Bool} {f : α → β} {g : G α} [h : Guarded c g st] :
    Guarded c (G.variant f g) st := by
  cases st
  · exact .bindF h fun _ => .ret
  · exact .bindT h fun _ => .ret

instance {c : Bool} {k : Kw} {a : α} : Guarded c (G.kwAs k a) true := by
  unfold G.kwAs; infer_instance
instance {c : Bool} {k : Kw} : Guarded c (G.optKw k) false := by
  unfold G.optKw; infer_instance
instance {c : Bool} {p : Punct} : Guarded c (G.optPunct p) false := by
  unfold G.optPunct; infer_instance

theorem toFalse {c st : Bool} {g : G α} (h : Guarded c g st) : Guarded c g false := by
  cases st
  · exact h
  · exact .weaken h

instance {c st b : Bool} {g : G α} [h : Guarded c g st] : Guarded c (G.cond b g) false := by
  unfold G.cond
  cases b
  · exact .ret
  · have : Guarded c (G.variant some g) st := inferInstance
    exact this.toFalse

instance {c st : Bool} {g : G α} [Guarded true g st] : Guarded c (G.parenthesized g) true := by
  unfold G.parenthesized; cases st <;> infer_instance
instance {c st : Bool} {g : G α} [Guarded true g st] : Guarded c (G.bracketed g) true := by
  unfold G.bracketed; cases st <;> infer_instance
instance {c st : Bool} {g : G α} [Guarded true g st] : Guarded c (G.braced g) true := by
  unfold G.braced; cases st <;> infer_instance
instance {c st : Bool} {g : G α} [Guarded true g st] : Guarded c (G.generics g) true := by
  unfold G.generics; cases st <;> infer_instance
instance {c st st' : Bool} {g : G α} {sep : G β} [h : Guarded c g st] [h' : Guarded true sep st'] :
    Guarded c (G.punctuated g sep) false := .separatedList h h'
instance {c st st' : Bool} {g : G α} {sep : G β} [h : Guarded c g st] [h' : Guarded true sep st'] :
    Guarded c (G.punctuatedNonEmpty g sep) true :=
  .bindT (.separatedNonemptyList h h') fun _ => .bindF (.opt h') fun _ => .ret
instance {c st : Bool} {g : G α} [h : Guarded c g st] : Guarded c (G.commaList g) false := by
  unfold G.commaList; infer_instance
instance {c st : Bool} {f : α → Bool → β} {g : G α} [h : Guarded c g st] :
    Guarded c (G.mayBeNull f g) st := by
  cases st
  · exact .bindF h fun _ => (inferInstance : Guarded c (G.optPunct .qMark >>= _) false)
  · exact .bindT h fun _ => (inferInstance : Guarded true (G.optPunct .qMark >>= _) false)
instance {c : Bool} {g : G Ty} [h : Guarded c g true] : Guarded c (G.returnTypeOf g) true := by
  unfold G.returnTypeOf; infer_instance

instance : Guarded true G.argumentList false := by unfold G.argumentList; infer_instance
instance : Guarded true G.identifierList false := by unfold G.identifierList; infer_instance
instance : Guarded true G.recordKeyType true := by unfold G.recordKeyType; infer_instance
instance {c : Bool} : Guarded c G.integerLit true := by unfold G.integerLit; infer_instance
instance {c : Bool} : Guarded c G.floatLit true := by unfold G.floatLit; infer_instance
instance {c : Bool} : Guarded c G.booleanLit true := by unfold G.booleanLit; infer_instance
instance {c : Bool} : Guarded c G.stringLit true := by unfold G.stringLit; infer_instance
instance {c : Bool} : Guarded c G.emptyArrayLit true := by unfold G.emptyArrayLit; infer_instance
instance {c : Bool} : Guarded c G.emptyDictionaryLit true := by unfold G.emptyDictionaryLit; infer_instance
instance {c : Bool} : Guarded c G.defaultValue true := by unfold G.defaultValue; infer_instance
instance {c : Bool} : Guarded c G.constValue true := by unfold G.constValue; infer_instance
instance {c : Bool} : Guarded c G.default true := by unfold G.default; infer_instance
instance {c : Bool} : Guarded c G.identifierOrString true := by unfold G.identifierOrString; infer_instance
instance {c : Bool} : Guarded c G.extAttrArgList true := by unfold G.extAttrArgList; infer_instance
instance {c : Bool} : Guarded c G.extAttrNamedArgList true := by unfold G.extAttrNamedArgList; infer_instance
instance {c : Bool} : Guarded c G.extAttrIdentList true := by unfold G.extAttrIdentList; infer_instance
instance {c : Bool} : Guarded c G.extAttrIdent true := by unfold G.extAttrIdent; infer_instance
instance {c : Bool} : Guarded c G.extAttrWildcard true := by unfold G.extAttrWildcard; infer_instance
instance {c : Bool} : Guarded c G.extAttrNoArgs true := by unfold G.extAttrNoArgs; infer_instance
instance {c : Bool} : Guarded c G.extAttr true := by unfold G.extAttr; infer_instance
instance {c : Bool} : Guarded c G.extAttrList true := by unfold G.extAttrList; infer_instance
instance {c : Bool} : Guarded c G.attrs false := by unfold G.attrs; infer_instance
instance {c : Bool} : Guarded c G.longLongType true := by unfold G.longLongType; infer_instance
instance {c : Bool} : Guarded c G.longType true := by unfold G.longType; infer_instance
instance {c : Bool} : Guarded c G.shortType true := by unfold G.shortType; infer_instance
instance {c : Bool} : Guarded c G.integerType true := by unfold G.integerType; infer_instance
instance {c : Bool} : Guarded c G.floatType true := by unfold G.floatType; infer_instance
instance {c : Bool} : Guarded c G.doubleType true := by unfold G.doubleType; infer_instance
instance {c : Bool} : Guarded c G.floatingPointType true := by unfold G.floatingPointType; infer_instance
instance {c : Bool} {b : Builtin} : Guarded c (G.builtin b) true := by
  unfold G.builtin; infer_instance
instance {c : Bool} : Guarded c G.unionType true := by unfold G.unionType; infer_instance
instance {c : Bool} : Guarded c G.promiseType true := by unfold G.promiseType; infer_instance
instance {c : Bool} : Guarded c G.sequenceType true := by unfold G.sequenceType; infer_instance
instance {c : Bool} : Guarded c G.frozenArrayType true := by unfold G.frozenArrayType; infer_instance
instance {c : Bool} : Guarded c G.recordType true := by unfold G.recordType; infer_instance
instance {c : Bool} : Guarded c G.nonAnyType true := by unfold G.nonAnyType; infer_instance
instance {c : Bool} : Guarded c G.singleType true := by unfold G.singleType; infer_instance
instance {c : Bool} : Guarded c G.type true := by unfold G.type; infer_instance
instance {c : Bool} : Guarded c G.attributedNonAnyType true := by unfold G.attributedNonAnyType; infer_instance
instance {c : Bool} : Guarded c G.unionMemberType true := by unfold G.unionMemberType; infer_instance
instance {c : Bool} : Guarded c G.constType true := by unfold G.constType; infer_instance
instance {c : Bool} : Guarded c G.returnType true := by unfold G.returnType; infer_instance
instance {c : Bool} : Guarded c G.attributedType true := by unfold G.attributedType; infer_instance
instance {c : Bool} : Guarded c G.singleArgument true := by unfold G.singleArgument; infer_instance
instance {c : Bool} : Guarded c G.variadicArgument true := by unfold G.variadicArgument; infer_instance
instance {c : Bool} : Guarded c G.argument true := by unfold G.argument; infer_instance
instance {c : Bool} : Guarded c G.inheritance true := by unfold G.inheritance; infer_instance
instance {c : Bool} : Guarded c G.constMember true := by unfold G.constMember; infer_instance
instance {c : Bool} : Guarded c G.stringifierOrInheritOrStatic true := by unfold G.stringifierOrInheritOrStatic; infer_instance
instance {c : Bool} : Guarded c G.stringifierOrStatic true := by unfold G.stringifierOrStatic; infer_instance
instance {c : Bool} : Guarded c G.special true := by unfold G.special; infer_instance
instance {c : Bool} : Guarded c G.attributeInterfaceMember true := by unfold G.attributeInterfaceMember; infer_instance
instance {c : Bool} : Guarded c G.constructorInterfaceMember true := by unfold G.constructorInterfaceMember; infer_instance
instance {c : Bool} : Guarded c G.operationInterfaceMember true := by unfold G.operationInterfaceMember; infer_instance
instance {c : Bool} : Guarded c G.attributedTypePair true := by unfold G.attributedTypePair; infer_instance
instance {c : Bool} : Guarded c G.singleTypedIterable true := by unfold G.singleTypedIterable; infer_instance
instance {c : Bool} : Guarded c G.doubleTypedIterable true := by unfold G.doubleTypedIterable; infer_instance
instance {c : Bool} : Guarded c G.iterableInterfaceMember true := by unfold G.iterableInterfaceMember; infer_instance
instance {c : Bool} : Guarded c G.singleTypedAsyncIterable true := by unfold G.singleTypedAsyncIterable; infer_instance
instance {c : Bool} : Guarded c G.doubleTypedAsyncIterable true := by unfold G.doubleTypedAsyncIterable; infer_instance
instance {c : Bool} : Guarded c G.asyncIterableInterfaceMember true := by unfold G.asyncIterableInterfaceMember; infer_instance
instance {c : Bool} : Guarded c G.maplikeInterfaceMember true := by unfold G.maplikeInterfaceMember; infer_instance
instance {c : Bool} : Guarded c G.setlikeInterfaceMember true := by unfold G.setlikeInterfaceMember; infer_instance
instance {c : Bool} : Guarded c G.stringifierMember true := by unfold G.stringifierMember; infer_instance
instance {c : Bool} : Guarded c G.interfaceMember true := by unfold G.interfaceMember; infer_instance
instance {c : Bool} : Guarded c G.interfaceMembers false := by unfold G.interfaceMembers; infer_instance
instance {c : Bool} : Guarded c G.operationMixinMember true := by unfold G.operationMixinMember; infer_instance
instance {c : Bool} : Guarded c G.attributeMixinMember true := by unfold G.attributeMixinMember; infer_instance
instance {c : Bool} : Guarded c G.mixinMember true := by unfold G.mixinMember; infer_instance
instance {c : Bool} : Guarded c G.mixinMembers false := by unfold G.mixinMembers; infer_instance
instance {c : Bool} : Guarded c G.operationNamespaceMember true := by unfold G.operationNamespaceMember; infer_instance
instance {c : Bool} : Guarded c G.attributeNamespaceMember true := by unfold G.attributeNamespaceMember; infer_instance
instance {c : Bool} : Guarded c G.namespaceMember true := by unfold G.namespaceMember; infer_instance
instance {c : Bool} : Guarded c G.namespaceMembers false := by unfold G.namespaceMembers; infer_instance
instance {c : Bool} : Guarded c G.dictionaryMember true := by unfold G.dictionaryMember; infer_instance
instance {c : Bool} : Guarded c G.dictionaryMembers false := by unfold G.dictionaryMembers; infer_instance
instance {c : Bool} : Guarded c G.callbackDefinition true := by unfold G.callbackDefinition; infer_instance
instance {c : Bool} : Guarded c G.callbackInterfaceDefinition true := by unfold G.callbackInterfaceDefinition; infer_instance
instance {c : Bool} : Guarded c G.interfaceDefinition true := by unfold G.interfaceDefinition; infer_instance
instance {c : Bool} : Guarded c G.interfaceMixinDefinition true := by unfold G.interfaceMixinDefinition; infer_instance
instance {c : Bool} : Guarded c G.namespaceDefinition true := by unfold G.namespaceDefinition; infer_instance
instance {c : Bool} : Guarded c G.dictionaryDefinition true := by unfold G.dictionaryDefinition; infer_instance
instance {c : Bool} : Guarded c G.partialInterfaceDefinition true := by unfold G.partialInterfaceDefinition; infer_instance
instance {c : Bool} : Guarded c G.partialInterfaceMixinDefinition true := by unfold G.partialInterfaceMixinDefinition; infer_instance
instance {c : Bool} : Guarded c G.partialDictionaryDefinition true := by unfold G.partialDictionaryDefinition; infer_instance
instance {c : Bool} : Guarded c G.partialNamespaceDefinition true := by unfold G.partialNamespaceDefinition; infer_instance
instance {c : Bool} : Guarded c G.enumValueList true := by unfold G.enumValueList; infer_instance
instance {c : Bool} : Guarded c G.enumDefinition true := by unfold G.enumDefinition; infer_instance
instance {c : Bool} : Guarded c G.typedefDefinition true := by unfold G.typedefDefinition; infer_instance
instance {c : Bool} : Guarded c G.includesStatementDefinition true := by unfold G.includesStatementDefinition; infer_instance
instance {c : Bool} : Guarded c G.implementsDefinition true := by unfold G.implementsDefinition; infer_instance
instance {c : Bool} : Guarded c G.definition true := by unfold G.definition; infer_instance
instance {c : Bool} : Guarded c G.definitions false := by unfold G.definitions; infer_instance

theorem body {α : Type} (N : NT α) : Guarded false (G.body N) true := by
  cases N with
  | type => exact (inferInstance : Guarded false G.type true)
  | nonAny => exact (inferInstance : Guarded false G.nonAnyType true)
  | unionMember => exact (inferInstance : Guarded false G.unionMemberType true)
  | argument => exact (inferInstance : Guarded false G.argument true)

end Guarded
end Verif
