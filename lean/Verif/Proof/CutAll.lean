import Verif.Proof.Cut

/-! # The terminals of the whole grammar are tried in order -/

namespace Verif.Cut
open Nom Spec

variable {α β : Type}

set_option synthInstance.maxSize 2000

/-- Nothing need be known before. -/
class Tidy (g : G α) : Prop where
  neat : Neat 0 g

/-- A terminal that is not an integer. -/
class Early (l : Leaf α) : Prop where
  level : Level 0 l

instance {k : Kw} : Early (.kw k) := ⟨trivial⟩
instance : Early .ident := ⟨trivial⟩
instance : Early .float := ⟨trivial⟩
instance : Early .string := ⟨trivial⟩

instance : Early (.punct .assign) := ⟨by decide, by decide⟩
instance : Early (.punct .asterisk) := ⟨by decide, by decide⟩
instance : Early (.punct .closeBrace) := ⟨by decide, by decide⟩
instance : Early (.punct .closeBracket) := ⟨by decide, by decide⟩
instance : Early (.punct .closeParen) := ⟨by decide, by decide⟩
instance : Early (.punct .colon) := ⟨by decide, by decide⟩
instance : Early (.punct .comma) := ⟨by decide, by decide⟩
instance : Early (.punct .ellipsis) := ⟨by decide, by decide⟩
instance : Early (.punct .greaterThan) := ⟨by decide, by decide⟩
instance : Early (.punct .lessThan) := ⟨by decide, by decide⟩
instance : Early (.punct .openBrace) := ⟨by decide, by decide⟩
instance : Early (.punct .openBracket) := ⟨by decide, by decide⟩
instance : Early (.punct .openParen) := ⟨by decide, by decide⟩
instance : Early (.punct .qMark) := ⟨by decide, by decide⟩
instance : Early (.punct .semiColon) := ⟨by decide, by decide⟩

theorem teach_none (g : G α) (n : Nat) : Teaches n g 0 := fun _ _ _ _ _ _ => known_zero _

instance {a : α} : Tidy (pure a : G α) := ⟨trivial⟩
instance {l : Leaf α} [h : Early l] : Tidy (.leaf l) := ⟨h.level⟩
instance {p : Punct} [h : Early (.punct p)] : Tidy (G.punct p) := ⟨h.level⟩
instance {k : Kw} : Tidy (G.kw k) := ⟨trivial⟩
instance : Tidy G.ident := ⟨trivial⟩
instance {g : G α} {f : α → G β} [h : Tidy g] [h' : ∀ a, Tidy (f a)] : Tidy (g >>= f) := ⟨h.neat, fun a => (h' a).neat⟩
instance {n : NT α} : Tidy (.call n) := ⟨trivial⟩
instance {g : G α} [h : Tidy g] : Tidy (.opt g) := ⟨h.neat⟩
instance {g : G α} [h : Tidy g] : Tidy (.many0 g) := ⟨h.neat⟩
instance : Tidy (G.alts ([] : List (G α))) := ⟨trivial⟩
instance {g : G α} {gs : List (G α)} [h : Tidy g] [h' : Tidy (G.alts gs)] : Tidy (G.alts (g :: gs)) :=
  ⟨h.neat, 0, teach_none _ _, h'.neat⟩
instance {f : α → β} {g : G α} [h : Tidy g] : Tidy (G.variant f g) := ⟨h.neat, fun _ => trivial⟩
instance {k : Kw} {a : α} : Tidy (G.kwAs k a) := by unfold G.kwAs; infer_instance
instance {k : Kw} : Tidy (G.optKw k) := by unfold G.optKw; infer_instance
instance {p : Punct} [Early (.punct p)] : Tidy (G.optPunct p) := by unfold G.optPunct; infer_instance
instance {b : Bool} {g : G α} [h : Tidy g] : Tidy (G.cond b g) := by
  unfold G.cond
  cases b
  · exact ⟨trivial⟩
  · exact (inferInstance : Tidy (G.variant some g))
instance {g : G α} [Tidy g] : Tidy (G.parenthesized g) := by unfold G.parenthesized; infer_instance
instance {g : G α} [Tidy g] : Tidy (G.bracketed g) := by unfold G.bracketed; infer_instance
instance {g : G α} [Tidy g] : Tidy (G.braced g) := by unfold G.braced; infer_instance
instance {g : G α} [Tidy g] : Tidy (G.generics g) := by unfold G.generics; infer_instance
instance {g : G α} {sep : G β} [h : Tidy g] [h' : Tidy sep] : Tidy (G.punctuated g sep) := ⟨h'.neat, h.neat⟩
instance {g : G α} {sep : G β} [h : Tidy g] [h' : Tidy sep] : Tidy (G.punctuatedNonEmpty g sep) :=
  ⟨⟨h'.neat, h.neat⟩, fun _ => ⟨h'.neat, fun _ => trivial⟩⟩
instance {g : G α} [h : Tidy g] : Tidy (G.commaList g) := by unfold G.commaList; infer_instance
instance {f : α → Bool → β} {g : G α} [h : Tidy g] : Tidy (G.mayBeNull f g) :=
  ⟨h.neat, fun _ => (inferInstance : Tidy (G.optPunct .qMark >>= _)).neat⟩
instance {g : G Ty} [h : Tidy g] : Tidy (G.returnTypeOf g) := by unfold G.returnTypeOf; infer_instance
instance {b : Builtin} : Tidy (G.builtin b) := by unfold G.builtin; infer_instance

/-- After the failure of a number. -/
theorem teach {l : Leaf Str} {f : Str → β} {n m : Nat} (h : ∀ s, Known n s → NoOk l s → Known m s) :
    Teaches n (G.variant f (.leaf l)) m := by
  intro s L p k hk ht
  refine h s hk fun r v e => ?_
  rcases ht.inv with ⟨_, _, _, _, _, h1, -⟩ | ⟨e', h1, -⟩
  · have := h1.inv
    simp [Spec.Traced.Inv] at this
    cases this.2
  · have h2 := h1.inv
    simp only [Spec.Traced.Inv] at h2
    rw [e] at h2
    cases h2.2

theorem teach_float {f : FloatLit → β} : Teaches 0 (G.variant f G.floatLit) 1 := by
  intro s L p k hk ht
  rcases ht.inv with ⟨_, _, _, _, _, h1, -⟩ | ⟨e', h1, h2⟩
  · have := h1.inv
    simp [Spec.Traced.Inv] at this
    cases this.2
  · obtain rfl := Res.err.inj h2
    rcases h1.inv with ⟨_, _, _, h2⟩ | ⟨_, _, _, _, h2, -⟩ | ⟨_, he, _, h2⟩
    · cases h2
    · exact teach (n := 0) (m := 1) (fun s _ h => ⟨fun _ => h, by omega, by omega⟩) s _ _ _ hk h2
    · exact (he _ _ (Res.err.inj h2).symm).elim

theorem neat_integer : Neat 1 G.integerLit :=
  ⟨⟨Nat.le_refl 1, fun _ => trivial⟩, 2, teach fun _ h h' => ⟨fun _ => h.1 (by omega), fun _ => h', by omega⟩,
   ⟨Nat.le_refl 2, fun _ => trivial⟩, 3, teach fun _ h h' => ⟨fun _ => h.1 (by omega), fun _ => h.2.1 (by omega), fun _ => h'⟩,
   ⟨Nat.le_refl 3, fun _ => trivial⟩, 0, teach_none _ _, trivial⟩

instance : Tidy G.argumentList := by unfold G.argumentList; infer_instance
instance : Tidy G.identifierList := by unfold G.identifierList; infer_instance
instance : Tidy G.recordKeyType := by unfold G.recordKeyType; infer_instance
instance : Tidy G.floatLit := by unfold G.floatLit; infer_instance
instance : Tidy G.booleanLit := by unfold G.booleanLit; infer_instance
instance : Tidy G.stringLit := by unfold G.stringLit; infer_instance
instance : Tidy G.emptyArrayLit := by unfold G.emptyArrayLit; infer_instance
instance : Tidy G.emptyDictionaryLit := by unfold G.emptyDictionaryLit; infer_instance
instance : Tidy G.defaultValue :=
  ⟨(inferInstance : Tidy (G.variant DefaultValue.boolean G.booleanLit)).neat, 0, teach_none _ _,
   (inferInstance : Tidy (G.variant (fun _ => DefaultValue.emptyArray) G.emptyArrayLit)).neat, 0, teach_none _ _,
   (inferInstance : Tidy (G.variant (fun _ => DefaultValue.emptyDictionary) G.emptyDictionaryLit)).neat, 0, teach_none _ _,
   (inferInstance : Tidy (G.variant DefaultValue.float G.floatLit)).neat, 1, teach_float,
   ⟨neat_integer, fun _ => trivial⟩, 0, teach_none _ _,
   (inferInstance : Tidy (G.alts [G.kwAs .null DefaultValue.null, G.variant DefaultValue.string G.stringLit])).neat⟩
instance : Tidy G.constValue :=
  ⟨(inferInstance : Tidy (G.variant ConstValue.boolean G.booleanLit)).neat, 0, teach_none _ _,
   (inferInstance : Tidy (G.variant ConstValue.float G.floatLit)).neat, 1, teach_float,
   ⟨neat_integer, fun _ => trivial⟩, 0, teach_none _ _,
   (inferInstance : Tidy (G.alts [G.kwAs .null ConstValue.null])).neat⟩
instance : Tidy G.default := by unfold G.default; infer_instance
instance : Tidy G.identifierOrString := by unfold G.identifierOrString; infer_instance
instance : Tidy G.extAttrArgList := by unfold G.extAttrArgList; infer_instance
instance : Tidy G.extAttrNamedArgList := by unfold G.extAttrNamedArgList; infer_instance
instance : Tidy G.extAttrIdentList := by unfold G.extAttrIdentList; infer_instance
instance : Tidy G.extAttrIdent := by unfold G.extAttrIdent; infer_instance
instance : Tidy G.extAttrWildcard := by unfold G.extAttrWildcard; infer_instance
instance : Tidy G.extAttrNoArgs := by unfold G.extAttrNoArgs; infer_instance
instance : Tidy G.extAttr := by unfold G.extAttr; infer_instance
instance : Tidy G.extAttrList := by unfold G.extAttrList; infer_instance
instance : Tidy G.attrs := by unfold G.attrs; infer_instance
instance : Tidy G.longLongType := by unfold G.longLongType; infer_instance
instance : Tidy G.longType := by unfold G.longType; infer_instance
instance : Tidy G.shortType := by unfold G.shortType; infer_instance
instance : Tidy G.integerType := by unfold G.integerType; infer_instance
instance : Tidy G.floatType := by unfold G.floatType; infer_instance
instance : Tidy G.doubleType := by unfold G.doubleType; infer_instance
instance : Tidy G.floatingPointType := by unfold G.floatingPointType; infer_instance
instance : Tidy G.unionType := by unfold G.unionType; infer_instance
instance : Tidy G.promiseType := by unfold G.promiseType; infer_instance
instance : Tidy G.sequenceType := by unfold G.sequenceType; infer_instance
instance : Tidy G.frozenArrayType := by unfold G.frozenArrayType; infer_instance
instance : Tidy G.recordType := by unfold G.recordType; infer_instance
instance : Tidy G.nonAnyType := by unfold G.nonAnyType; infer_instance
instance : Tidy G.singleType := by unfold G.singleType; infer_instance
instance : Tidy G.type := by unfold G.type; infer_instance
instance : Tidy G.attributedNonAnyType := by unfold G.attributedNonAnyType; infer_instance
instance : Tidy G.unionMemberType := by unfold G.unionMemberType; infer_instance
instance : Tidy G.constType := by unfold G.constType; infer_instance
instance : Tidy G.returnType := by unfold G.returnType; infer_instance
instance : Tidy G.attributedType := by unfold G.attributedType; infer_instance
instance : Tidy G.singleArgument := by unfold G.singleArgument; infer_instance
instance : Tidy G.variadicArgument := by unfold G.variadicArgument; infer_instance
instance : Tidy G.argument := by unfold G.argument; infer_instance
instance : Tidy G.inheritance := by unfold G.inheritance; infer_instance
instance : Tidy G.constMember := by unfold G.constMember; infer_instance
instance : Tidy G.stringifierOrInheritOrStatic := by unfold G.stringifierOrInheritOrStatic; infer_instance
instance : Tidy G.stringifierOrStatic := by unfold G.stringifierOrStatic; infer_instance
instance : Tidy G.special := by unfold G.special; infer_instance
instance : Tidy G.attributeInterfaceMember := by unfold G.attributeInterfaceMember; infer_instance
instance : Tidy G.constructorInterfaceMember := by unfold G.constructorInterfaceMember; infer_instance
instance : Tidy G.operationInterfaceMember := by unfold G.operationInterfaceMember; infer_instance
instance : Tidy G.attributedTypePair := by unfold G.attributedTypePair; infer_instance
instance : Tidy G.singleTypedIterable := by unfold G.singleTypedIterable; infer_instance
instance : Tidy G.doubleTypedIterable := by unfold G.doubleTypedIterable; infer_instance
instance : Tidy G.iterableInterfaceMember := by unfold G.iterableInterfaceMember; infer_instance
instance : Tidy G.singleTypedAsyncIterable := by unfold G.singleTypedAsyncIterable; infer_instance
instance : Tidy G.doubleTypedAsyncIterable := by unfold G.doubleTypedAsyncIterable; infer_instance
instance : Tidy G.asyncIterableInterfaceMember := by unfold G.asyncIterableInterfaceMember; infer_instance
instance : Tidy G.maplikeInterfaceMember := by unfold G.maplikeInterfaceMember; infer_instance
instance : Tidy G.setlikeInterfaceMember := by unfold G.setlikeInterfaceMember; infer_instance
instance : Tidy G.stringifierMember := by unfold G.stringifierMember; infer_instance
instance : Tidy G.interfaceMember := by unfold G.interfaceMember; infer_instance
instance : Tidy G.interfaceMembers := by unfold G.interfaceMembers; infer_instance
instance : Tidy G.operationMixinMember := by unfold G.operationMixinMember; infer_instance
instance : Tidy G.attributeMixinMember := by unfold G.attributeMixinMember; infer_instance
instance : Tidy G.mixinMember := by unfold G.mixinMember; infer_instance
instance : Tidy G.mixinMembers := by unfold G.mixinMembers; infer_instance
instance : Tidy G.operationNamespaceMember := by unfold G.operationNamespaceMember; infer_instance
instance : Tidy G.attributeNamespaceMember := by unfold G.attributeNamespaceMember; infer_instance
instance : Tidy G.namespaceMember := by unfold G.namespaceMember; infer_instance
instance : Tidy G.namespaceMembers := by unfold G.namespaceMembers; infer_instance
instance : Tidy G.dictionaryMember := by unfold G.dictionaryMember; infer_instance
instance : Tidy G.dictionaryMembers := by unfold G.dictionaryMembers; infer_instance
instance : Tidy G.callbackDefinition := by unfold G.callbackDefinition; infer_instance
instance : Tidy G.callbackInterfaceDefinition := by unfold G.callbackInterfaceDefinition; infer_instance
instance : Tidy G.interfaceDefinition := by unfold G.interfaceDefinition; infer_instance
instance : Tidy G.interfaceMixinDefinition := by unfold G.interfaceMixinDefinition; infer_instance
instance : Tidy G.namespaceDefinition := by unfold G.namespaceDefinition; infer_instance
instance : Tidy G.dictionaryDefinition := by unfold G.dictionaryDefinition; infer_instance
instance : Tidy G.partialInterfaceDefinition := by unfold G.partialInterfaceDefinition; infer_instance
instance : Tidy G.partialInterfaceMixinDefinition := by unfold G.partialInterfaceMixinDefinition; infer_instance
instance : Tidy G.partialDictionaryDefinition := by unfold G.partialDictionaryDefinition; infer_instance
instance : Tidy G.partialNamespaceDefinition := by unfold G.partialNamespaceDefinition; infer_instance
instance : Tidy G.enumValueList := by unfold G.enumValueList; infer_instance
instance : Tidy G.enumDefinition := by unfold G.enumDefinition; infer_instance
instance : Tidy G.typedefDefinition := by unfold G.typedefDefinition; infer_instance
instance : Tidy G.includesStatementDefinition := by unfold G.includesStatementDefinition; infer_instance
instance : Tidy G.implementsDefinition := by unfold G.implementsDefinition; infer_instance
instance : Tidy G.definition := by unfold G.definition; infer_instance
instance : Tidy G.definitions := by unfold G.definitions; infer_instance

theorem neat_body {γ : Type} (N : NT γ) : Neat 0 (G.body N) := by
  cases N with
  | type => exact (inferInstance : Tidy G.type).neat
  | nonAny => exact (inferInstance : Tidy G.nonAnyType).neat
  | unionMember => exact (inferInstance : Tidy G.unionMemberType).neat
  | argument => exact (inferInstance : Tidy G.argument).neat

theorem tidy {g : G α} [h : Tidy g] {s : Str} {L : List (Attempt Char)} {x : Res Char α} (ht : Traced charLeaf g s L x) : Fit s L x :=
  fit neat_body ht 0 h.neat (known_zero s)

end Verif.Cut
