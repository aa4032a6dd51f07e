import Verif.Proof.CostBound
import Verif.Proof.Knot

/-! # The weights of the grammar expressions -/

namespace Verif
open Nom Spec

variable {α β : Type}

set_option synthInstance.maxSize 2000
set_option synthInstance.maxHeartbeats 200000

namespace Weigh

instance {c : Bool} {a : α} : Weigh c (pure a : G α) 0 := .ret
instance {c : Bool} {l : Leaf α} : Weigh c (.leaf l) 1 := .leaf
instance {c : Bool} {p : Punct} : Weigh c (G.punct p) 1 := .leaf
instance {c : Bool} {k : Kw} : Weigh c (G.kw k) 1 := .leaf
instance {c : Bool} : Weigh c G.ident 1 := .leaf
instance {c : Bool} {g : G α} {f : α → G β} {w w' : Nat} [hs : Guarded true g true] [hg : Weigh c g w]
    [hf : ∀ a, Weigh true (f a) w'] : Weigh c (g >>= f) (w + w') := .bind hs hg hf
instance {c : Bool} {g : G α} {f : α → G β} {w w' : Nat} [hs : Guarded true g false] [hg : Weigh c g w]
    [hf : ∀ a, Weigh c (f a) w'] : Weigh c (g >>= f) (w + w') := .bind hs hg hf
instance {n : NT α} : Weigh true (.call n) 1 := .call
instance {c : Bool} {g : G α} {w : Nat} [h : Weigh c g w] : Weigh c (.opt g) w := .opt h
instance {c st : Bool} {g : G α} {w : Nat} [hs : Guarded true g st] [h : Weigh c g w] : Weigh c (.many0 g) (2 * w) :=
  .many0 hs h
instance {c : Bool} {g : G α} {w : Nat} [h : Weigh c g w] : Weigh c (G.alts [g]) w := .orElse h .altEnd
instance {c : Bool} {g g' : G α} {gs : List (G α)} {w w' : Nat} [h : Weigh c g w] [h' : Weigh c (G.alts (g' :: gs)) w'] :
    Weigh c (G.alts (g :: g' :: gs)) (w + w') := .orElse h h'
instance {c st : Bool} {f : α → β} {g : G α} {w : Nat} [hs : Guarded true g st] [hg : Weigh c g w] :
    Weigh c (G.variant f g) w := .bind hs hg fun _ => .ret
instance {c : Bool} {k : Kw} {a : α} : Weigh c (G.kwAs k a) 1 := .bind (st := true) .leaf .leaf fun _ => .ret
instance {c : Bool} {k : Kw} : Weigh c (G.optKw k) 1 := .bind (st := false) (.opt .leaf) (.opt .leaf) fun _ => .ret
instance {c : Bool} {k : Punct} : Weigh c (G.optPunct k) 1 := .bind (st := false) (.opt .leaf) (.opt .leaf) fun _ => .ret
instance {c st b : Bool} {g : G α} {w : Nat} [hs : Guarded true g st] [hg : Weigh c g w] : Weigh c (G.cond b g) w := by
  cases b
  · exact .mono .ret (Nat.zero_le _)
  · exact .bind hs hg fun _ => .ret
instance {c st : Bool} {f : α → Bool → β} {g : G α} {w : Nat} [hs : Guarded true g st] [hg : Weigh c g w] :
    Weigh c (G.mayBeNull f g) (w + 1) :=
  .bind hs hg fun _ => .bind (st := false) (inferInstanceAs (Guarded true (G.optPunct .qMark) false))
    (inferInstanceAs (Weigh _ (G.optPunct .qMark) 1)) fun _ => .ret
instance {c st : Bool} {g : G α} {w : Nat} [hs : Guarded true g st] [hg : Weigh true g w] :
    Weigh c (G.parenthesized g) (1 + (w + 1)) :=
  .bind (st := true) .leaf .leaf fun _ => .bind hs hg fun _ => .bind (st := true) .leaf .leaf fun _ => .ret
instance {c st : Bool} {g : G α} {w : Nat} [hs : Guarded true g st] [hg : Weigh true g w] :
    Weigh c (G.bracketed g) (1 + (w + 1)) :=
  .bind (st := true) .leaf .leaf fun _ => .bind hs hg fun _ => .bind (st := true) .leaf .leaf fun _ => .ret
instance {c st : Bool} {g : G α} {w : Nat} [hs : Guarded true g st] [hg : Weigh true g w] :
    Weigh c (G.braced g) (1 + (w + 1)) :=
  .bind (st := true) .leaf .leaf fun _ => .bind hs hg fun _ => .bind (st := true) .leaf .leaf fun _ => .ret
instance {c st : Bool} {g : G α} {w : Nat} [hs : Guarded true g st] [hg : Weigh true g w] :
    Weigh c (G.generics g) (1 + (w + 1)) :=
  .bind (st := true) .leaf .leaf fun _ => .bind hs hg fun _ => .bind (st := true) .leaf .leaf fun _ => .ret
instance {c st st' : Bool} {g : G α} {sep : G β} {w w' : Nat} [hs : Guarded true sep st] [hs' : Guarded true g st']
    [h : Weigh c sep w] [h' : Weigh c g w'] : Weigh c (G.punctuated g sep) (2 * (w + w')) := .separatedList hs hs' h h'
instance {c st st' : Bool} {g : G α} {sep : G β} {w w' : Nat} [hs : Guarded true sep st] [hs' : Guarded true g st']
    [h : Weigh c sep w] [h' : Weigh c g w'] [h'' : Weigh true sep w] :
    Weigh c (G.punctuatedNonEmpty g sep) (2 * (w + w') + w) :=
  .bind (st := true) (.separatedNonemptyList hs' hs) (.separatedNonemptyList hs hs' h h') fun _ =>
    .bind (st := false) (.opt hs) (.opt h'') fun _ => .ret
instance {c st : Bool} {g : G α} {w : Nat} [hs : Guarded true g st] [hg : Weigh c g w] :
    Weigh c (G.commaList g) (2 * (1 + w)) := .separatedList (sep := G.punct .comma) inferInstance hs .leaf hg
instance {c : Bool} {g : G Ty} {w : Nat} [hs : Guarded true g true] [hg : Weigh c g w] :
    Weigh c (G.returnTypeOf g) (1 + w) := .orElse (inferInstanceAs (Weigh c (G.kwAs _ _) 1))
      (.orElse (inferInstanceAs (Weigh c (G.variant _ g) w)) .altEnd)

instance {c : Bool} {b : Builtin} : Weigh c (G.builtin b) 2 := by unfold G.builtin; infer_instance

instance : Weigh true G.argumentList 4 := by unfold G.argumentList; infer_instance
instance {c : Bool} : Weigh c G.identifierList 4 := by unfold G.identifierList; infer_instance
instance : Weigh true G.recordKeyType 4 := by unfold G.recordKeyType; infer_instance
instance {c : Bool} : Weigh c G.integerLit 3 := by unfold G.integerLit; infer_instance
instance {c : Bool} : Weigh c G.floatLit 4 := by unfold G.floatLit; infer_instance
instance {c : Bool} : Weigh c G.booleanLit 2 := by unfold G.booleanLit; infer_instance
instance {c : Bool} : Weigh c G.stringLit 1 := by unfold G.stringLit; infer_instance
instance {c : Bool} : Weigh c G.emptyArrayLit 2 := by unfold G.emptyArrayLit; infer_instance
instance {c : Bool} : Weigh c G.emptyDictionaryLit 2 := by unfold G.emptyDictionaryLit; infer_instance
instance {c : Bool} : Weigh c G.defaultValue 15 := by unfold G.defaultValue; infer_instance
instance {c : Bool} : Weigh c G.constValue 10 := by unfold G.constValue; infer_instance
instance {c : Bool} : Weigh c G.default 16 := by unfold G.default; infer_instance
instance {c : Bool} : Weigh c G.identifierOrString 2 := by unfold G.identifierOrString; infer_instance
instance {c : Bool} : Weigh c G.extAttrArgList 7 := by unfold G.extAttrArgList; infer_instance
instance {c : Bool} : Weigh c G.extAttrNamedArgList 9 := by unfold G.extAttrNamedArgList; infer_instance
instance {c : Bool} : Weigh c G.extAttrIdentList 8 := by unfold G.extAttrIdentList; infer_instance
instance {c : Bool} : Weigh c G.extAttrIdent 4 := by unfold G.extAttrIdent; infer_instance
instance {c : Bool} : Weigh c G.extAttrWildcard 3 := by unfold G.extAttrWildcard; infer_instance
instance {c : Bool} : Weigh c G.extAttrNoArgs 1 := by unfold G.extAttrNoArgs; infer_instance
instance {c : Bool} : Weigh c G.extAttr 32 := by unfold G.extAttr; infer_instance
instance {c : Bool} : Weigh c G.extAttrList 68 := by unfold G.extAttrList; infer_instance
instance {c : Bool} : Weigh c G.attrs 68 := by unfold G.attrs; infer_instance
instance {c : Bool} : Weigh c G.longLongType 3 := by unfold G.longLongType; infer_instance
instance {c : Bool} : Weigh c G.longType 2 := by unfold G.longType; infer_instance
instance {c : Bool} : Weigh c G.shortType 2 := by unfold G.shortType; infer_instance
instance {c : Bool} : Weigh c G.integerType 7 := by unfold G.integerType; infer_instance
instance {c : Bool} : Weigh c G.floatType 2 := by unfold G.floatType; infer_instance
instance {c : Bool} : Weigh c G.doubleType 2 := by unfold G.doubleType; infer_instance
instance {c : Bool} : Weigh c G.floatingPointType 4 := by unfold G.floatingPointType; infer_instance
instance {c : Bool} : Weigh c G.unionType 6 := by unfold G.unionType; infer_instance
instance {c : Bool} : Weigh c G.promiseType 5 := by unfold G.promiseType; infer_instance
instance {c : Bool} : Weigh c G.sequenceType 4 := by unfold G.sequenceType; infer_instance
instance {c : Bool} : Weigh c G.frozenArrayType 4 := by unfold G.frozenArrayType; infer_instance
instance {c : Bool} : Weigh c G.recordType 9 :=
  .bind (st := true) .leaf .leaf fun _ => (inferInstance : Weigh true (G.generics (do
    let key ← G.recordKeyType
    G.punct .comma
    let value ← G.call .type
    pure (key, value))) 8)
instance {c : Bool} : Weigh c G.nonAnyType 84 := by unfold G.nonAnyType; infer_instance
instance {c : Bool} : Weigh c G.singleType 85 := by unfold G.singleType; infer_instance
instance {c : Bool} : Weigh c G.type 92 := by unfold G.type; infer_instance
instance {c : Bool} : Weigh c G.attributedNonAnyType 152 := by unfold G.attributedNonAnyType; infer_instance
instance {c : Bool} : Weigh c G.unionMemberType 159 := by unfold G.unionMemberType; infer_instance
instance {c : Bool} : Weigh c G.constType 21 := by unfold G.constType; infer_instance
instance {c : Bool} : Weigh c G.returnType 93 := by unfold G.returnType; infer_instance
instance {c : Bool} : Weigh c G.attributedType 160 := by unfold G.attributedType; infer_instance
instance {c : Bool} : Weigh c G.singleArgument 246 := by unfold G.singleArgument; infer_instance
instance {c : Bool} : Weigh c G.variadicArgument 162 := by unfold G.variadicArgument; infer_instance
instance {c : Bool} : Weigh c G.argument 408 := by unfold G.argument; infer_instance
instance {c : Bool} : Weigh c G.inheritance 2 := by unfold G.inheritance; infer_instance
instance {c : Bool} : Weigh c G.constMember 103 := by unfold G.constMember; infer_instance
instance {c : Bool} : Weigh c G.stringifierOrInheritOrStatic 3 := by unfold G.stringifierOrInheritOrStatic; infer_instance
instance {c : Bool} : Weigh c G.stringifierOrStatic 2 := by unfold G.stringifierOrStatic; infer_instance
instance {c : Bool} : Weigh c G.special 4 := by unfold G.special; infer_instance
instance {c : Bool} : Weigh c G.attributeInterfaceMember 235 := by unfold G.attributeInterfaceMember; infer_instance
instance {c : Bool} : Weigh c G.constructorInterfaceMember 76 := by unfold G.constructorInterfaceMember; infer_instance
instance {c : Bool} : Weigh c G.operationInterfaceMember 175 := by unfold G.operationInterfaceMember; infer_instance
instance {c : Bool} : Weigh c G.attributedTypePair 321 := by unfold G.attributedTypePair; infer_instance
instance {c : Bool} : Weigh c G.singleTypedIterable 232 := by unfold G.singleTypedIterable; infer_instance
instance {c : Bool} : Weigh c G.doubleTypedIterable 393 := by unfold G.doubleTypedIterable; infer_instance
instance {c : Bool} : Weigh c G.iterableInterfaceMember 625 := by unfold G.iterableInterfaceMember; infer_instance
instance {c : Bool} : Weigh c G.singleTypedAsyncIterable 239 := by unfold G.singleTypedAsyncIterable; infer_instance
instance {c : Bool} : Weigh c G.doubleTypedAsyncIterable 400 := by unfold G.doubleTypedAsyncIterable; infer_instance
instance {c : Bool} : Weigh c G.asyncIterableInterfaceMember 639 := by unfold G.asyncIterableInterfaceMember; infer_instance
instance {c : Bool} : Weigh c G.maplikeInterfaceMember 394 := by unfold G.maplikeInterfaceMember; infer_instance
instance {c : Bool} : Weigh c G.setlikeInterfaceMember 233 := by unfold G.setlikeInterfaceMember; infer_instance
instance {c : Bool} : Weigh c G.stringifierMember 70 := by unfold G.stringifierMember; infer_instance
instance {c : Bool} : Weigh c G.interfaceMember 2550 := by unfold G.interfaceMember; infer_instance
instance {c : Bool} : Weigh c G.interfaceMembers 5100 := by unfold G.interfaceMembers; infer_instance
instance {c : Bool} : Weigh c G.operationMixinMember 170 := by unfold G.operationMixinMember; infer_instance
instance {c : Bool} : Weigh c G.attributeMixinMember 233 := by unfold G.attributeMixinMember; infer_instance
instance {c : Bool} : Weigh c G.mixinMember 576 := by unfold G.mixinMember; infer_instance
instance {c : Bool} : Weigh c G.mixinMembers 1152 := by unfold G.mixinMembers; infer_instance
instance {c : Bool} : Weigh c G.operationNamespaceMember 169 := by unfold G.operationNamespaceMember; infer_instance
instance {c : Bool} : Weigh c G.attributeNamespaceMember 232 := by unfold G.attributeNamespaceMember; infer_instance
instance {c : Bool} : Weigh c G.namespaceMember 504 := by unfold G.namespaceMember; infer_instance
instance {c : Bool} : Weigh c G.namespaceMembers 1008 := by unfold G.namespaceMembers; infer_instance
instance {c : Bool} : Weigh c G.dictionaryMember 179 := by unfold G.dictionaryMember; infer_instance
instance {c : Bool} : Weigh c G.dictionaryMembers 358 := by unfold G.dictionaryMembers; infer_instance
instance {c : Bool} : Weigh c G.callbackDefinition 171 := by unfold G.callbackDefinition; infer_instance
instance {c : Bool} : Weigh c G.callbackInterfaceDefinition 5176 := by unfold G.callbackInterfaceDefinition; infer_instance
instance {c : Bool} : Weigh c G.interfaceDefinition 5175 := by unfold G.interfaceDefinition; infer_instance
instance {c : Bool} : Weigh c G.interfaceMixinDefinition 1226 := by unfold G.interfaceMixinDefinition; infer_instance
instance {c : Bool} : Weigh c G.namespaceDefinition 1081 := by unfold G.namespaceDefinition; infer_instance
instance {c : Bool} : Weigh c G.dictionaryDefinition 433 := by unfold G.dictionaryDefinition; infer_instance
instance {c : Bool} : Weigh c G.partialInterfaceDefinition 5174 := by unfold G.partialInterfaceDefinition; infer_instance
instance {c : Bool} : Weigh c G.partialInterfaceMixinDefinition 1227 := by unfold G.partialInterfaceMixinDefinition; infer_instance
instance {c : Bool} : Weigh c G.partialDictionaryDefinition 432 := by unfold G.partialDictionaryDefinition; infer_instance
instance {c : Bool} : Weigh c G.partialNamespaceDefinition 1082 := by unfold G.partialNamespaceDefinition; infer_instance
instance {c : Bool} : Weigh c G.enumValueList 5 := by unfold G.enumValueList; infer_instance
instance {c : Bool} : Weigh c G.enumDefinition 78 := by unfold G.enumDefinition; infer_instance
instance {c : Bool} : Weigh c G.typedefDefinition 231 := by unfold G.typedefDefinition; infer_instance
instance {c : Bool} : Weigh c G.includesStatementDefinition 72 := by unfold G.includesStatementDefinition; infer_instance
instance {c : Bool} : Weigh c G.implementsDefinition 72 := by unfold G.implementsDefinition; infer_instance
instance {c : Bool} : Weigh c G.definition 21630 := by unfold G.definition; infer_instance
instance {c : Bool} : Weigh c G.definitions 43260 := by unfold G.definitions; infer_instance

end Weigh

theorem weigh_body (α : Type) (N : NT α) : Weigh false (G.body N) 408 := by
  cases N with
  | type => exact .mono (inferInstance : Weigh false G.type _) (by decide)
  | nonAny => exact .mono (inferInstance : Weigh false G.nonAnyType _) (by decide)
  | unionMember => exact .mono (inferInstance : Weigh false G.unionMemberType _) (by decide)
  | argument => exact (inferInstance : Weigh false G.argument _)

theorem IsType.weigh {α : Type} {g : G α} {b : Bool} (h : IsType g b) : ∃ w, Weigh true g w := by
  induction h with
  | option _ ih =>
    obtain ⟨w, hw⟩ := ih
    exact ⟨_, .opt hw⟩
  | vec h ih =>
    obtain ⟨w, hw⟩ := ih
    exact ⟨_, .many0 h.guarded hw⟩
  | pair hg hh ih1 ih2 =>
    obtain ⟨w, hw⟩ := ih1
    obtain ⟨w', hw'⟩ := ih2
    exact ⟨_, .bind hg.guarded hw fun _ => .bind (c := _ || true) hh.guarded (by simpa using hw') fun _ => .ret⟩
  | triple hg hh hi ih1 ih2 ih3 =>
    obtain ⟨w, hw⟩ := ih1
    obtain ⟨w', hw'⟩ := ih2
    obtain ⟨w'', hw''⟩ := ih3
    exact ⟨_, .bind hg.guarded hw fun _ => .bind (c := _ || true) hh.guarded (by simpa using hw') fun _ =>
      .bind (c := _ || (_ || true)) hi.guarded (by simpa using hw'') fun _ => .ret⟩
  | parenthesized h ih | bracketed h ih | braced h ih | generics h ih | mayBeNull h ih =>
    obtain ⟨w, hw⟩ := ih
    have := h.guarded
    exact ⟨_, inferInstance⟩
  | punctuated h hs ih1 ih2 | punctuatedNonEmpty h hs ih1 ih2 =>
    obtain ⟨w, hw⟩ := ih1
    obtain ⟨w', hw'⟩ := ih2
    have := h.guarded
    have := hs.guarded
    exact ⟨_, inferInstance⟩
  | _ => exact ⟨_, inferInstance⟩

end Verif
