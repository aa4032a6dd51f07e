import Verif.Proof.Nesting
import Verif.Proof.Cost

/-! # The grammar expressions recurse only inside brackets -/

namespace Verif
open Nom Spec

variable {α β : Type}

set_option synthInstance.maxSize 2000
set_option synthInstance.maxHeartbeats 400000

namespace Tame

variable {l k : Nat}

instance {a : α} : Tame l (pure a : G α) l 0 k := .ret
instance {x : Leaf α} [h : Flat x] : Tame l (.leaf x) l 1 k := .leaf h
instance {p : Punct} [h : FlatPunct p] : Tame l (G.punct p) l 1 k := .leaf inferInstance
instance : Tame l (G.punct .openParen) (l + 1) 1 k := .openB (.inl rfl)
instance : Tame l (G.punct .lessThan) (l + 1) 1 k := .openB (.inr rfl)
instance : Tame (l + 1) (G.punct .closeParen) l 1 k := .closeB (.inl rfl)
instance : Tame (l + 1) (G.punct .greaterThan) l 1 k := .closeB (.inr rfl)
instance {x : Kw} : Tame l (G.kw x) l 1 k := .leaf inferInstance
instance : Tame l G.ident l 1 k := .leaf inferInstance
instance {g : G α} {f : α → G β} {m l' w w' : Nat} {st : Bool} [hs : Guarded true g st] [hg : Tame l g m w k]
    [hf : ∀ a, Tame m (f a) l' w' k] : Tame l (g >>= f) l' (w + w') k := .bind hs hg hf
instance {n : NT α} : Tame (l + 1) (.call n) (l + 1) 1 k := .call
instance {g : G α} {w : Nat} [h : Tame l g l w k] : Tame l (.opt g) l w k := .opt h
instance {st : Bool} {g : G α} {w : Nat} [hs : Guarded true g st] [h : Tame l g l w k] : Tame l (.many0 g) l w (k + 1) :=
  .many0 hs h
instance {g : G α} {l' w : Nat} [h : Tame l g l' w k] : Tame l (G.alts [g]) l' w k := .orElse h .altEnd
instance {g g' : G α} {gs : List (G α)} {l' w w' : Nat} [h : Tame l g l' w k]
    [h' : Tame l (G.alts (g' :: gs)) l' w' k] : Tame l (G.alts (g :: g' :: gs)) l' (w + w') k := .orElse h h'
instance {st : Bool} {f : α → β} {g : G α} {l' w : Nat} [hs : Guarded true g st] [hg : Tame l g l' w k] :
    Tame l (G.variant f g) l' w k := .bind hs hg fun _ => .ret
instance {x : Kw} {a : α} : Tame l (G.kwAs x a) l 1 k := .bind (st := true) .leaf (.leaf inferInstance) fun _ => .ret
instance {x : Kw} : Tame l (G.optKw x) l 1 k :=
  .bind (st := false) (.opt .leaf) (.opt (.leaf inferInstance)) fun _ => .ret
instance {p : Punct} [FlatPunct p] : Tame l (G.optPunct p) l 1 k :=
  .bind (st := false) (.opt .leaf) (.opt (.leaf inferInstance)) fun _ => .ret
instance {st b : Bool} {g : G α} {w : Nat} [hs : Guarded true g st] [hg : Tame l g l w k] : Tame l (G.cond b g) l w k := by
  cases b
  · exact .mono .ret (Nat.zero_le _)
  · exact .bind hs hg fun _ => .ret
instance {st : Bool} {f : α → Bool → β} {g : G α} {l' w : Nat} [hs : Guarded true g st] [hg : Tame l g l' w k] :
    Tame l (G.mayBeNull f g) l' (w + 1) k :=
  .bind hs hg fun _ => .bind (st := false) (inferInstanceAs (Guarded true (G.optPunct .qMark) false))
    (inferInstanceAs (Tame _ (G.optPunct .qMark) _ 1 k)) fun _ => .ret
instance {st : Bool} {g : G α} {w : Nat} [hs : Guarded true g st] [hg : Tame (l + 1) g (l + 1) w k] :
    Tame l (G.parenthesized g) l (1 + (w + 1)) k :=
  .bind (st := true) .leaf (.openB (.inl rfl)) fun _ => .bind hs hg fun _ =>
    .bind (st := true) .leaf (.closeB (.inl rfl)) fun _ => .ret
instance {st : Bool} {g : G α} {w : Nat} [hs : Guarded true g st] [hg : Tame l g l w k] :
    Tame l (G.bracketed g) l (1 + (w + 1)) k :=
  .bind (st := true) .leaf (.leaf inferInstance) fun _ => .bind hs hg fun _ =>
    .bind (st := true) .leaf (.leaf inferInstance) fun _ => .ret
instance {st : Bool} {g : G α} {w : Nat} [hs : Guarded true g st] [hg : Tame l g l w k] :
    Tame l (G.braced g) l (1 + (w + 1)) k :=
  .bind (st := true) .leaf (.leaf inferInstance) fun _ => .bind hs hg fun _ =>
    .bind (st := true) .leaf (.leaf inferInstance) fun _ => .ret
instance {st : Bool} {g : G α} {w : Nat} [hs : Guarded true g st] [hg : Tame (l + 1) g (l + 1) w k] :
    Tame l (G.generics g) l (1 + (w + 1)) k :=
  .bind (st := true) .leaf (.openB (.inr rfl)) fun _ => .bind hs hg fun _ =>
    .bind (st := true) .leaf (.closeB (.inr rfl)) fun _ => .ret
instance {st st' : Bool} {g : G α} {sep : G β} {w w' : Nat} [hs : Guarded true sep st] [hs' : Guarded true g st']
    [h : Tame l sep l w k] [h' : Tame l g l w' k] : Tame l (G.punctuated g sep) l (w + w') (k + 1) :=
  .separatedList hs hs' h h'
instance {st st' : Bool} {g : G α} {sep : G β} {w w' : Nat} [hs : Guarded true sep st] [hs' : Guarded true g st']
    [h : Tame l sep l w k] [h' : Tame l g l w' k] [h'' : Tame l sep l w (k + 1)] :
    Tame l (G.punctuatedNonEmpty g sep) l (w + w' + w) (k + 1) :=
  .bind (st := true) (.separatedNonemptyList hs' hs) (.separatedNonemptyList hs hs' h h') fun _ =>
    .bind (st := false) (.opt hs) (.opt h'') fun _ => .ret
instance {st : Bool} {g : G α} {w : Nat} [hs : Guarded true g st] [hg : Tame l g l w k] :
    Tame l (G.commaList g) l (1 + w) (k + 1) :=
  .separatedList (sep := G.punct .comma) inferInstance hs (.leaf inferInstance) hg
instance {g : G Ty} {w : Nat} [hs : Guarded true g true] [hg : Tame l g l w k] :
    Tame l (G.returnTypeOf g) l (1 + w) k := .orElse (inferInstanceAs (Tame l (G.kwAs _ _) l 1 k))
      (.orElse (inferInstanceAs (Tame l (G.variant _ g) l w k)) .altEnd)

instance {b : Builtin} : Tame l (G.builtin b) l 2 k := by unfold G.builtin; infer_instance

instance : Tame (l + 1) G.argumentList (l + 1) 2 (k + 1) := by unfold G.argumentList; infer_instance
instance : Tame l G.identifierList l 2 (k + 1) := by unfold G.identifierList; infer_instance
instance : Tame (l + 1) G.recordKeyType (l + 1) 4 k := by unfold G.recordKeyType; infer_instance
instance : Tame l G.integerLit l 3 k := by unfold G.integerLit; infer_instance
instance : Tame l G.floatLit l 4 k := by unfold G.floatLit; infer_instance
instance : Tame l G.booleanLit l 2 k := by unfold G.booleanLit; infer_instance
instance : Tame l G.stringLit l 1 k := by unfold G.stringLit; infer_instance
instance : Tame l G.emptyArrayLit l 2 k := by unfold G.emptyArrayLit; infer_instance
instance : Tame l G.emptyDictionaryLit l 2 k := by unfold G.emptyDictionaryLit; infer_instance
instance : Tame l G.defaultValue l 15 k := by unfold G.defaultValue; infer_instance
instance : Tame l G.constValue l 10 k := by unfold G.constValue; infer_instance
instance : Tame l G.default l 16 k := by unfold G.default; infer_instance
instance : Tame l G.identifierOrString l 2 k := by unfold G.identifierOrString; infer_instance
instance : Tame l G.extAttrArgList l 5 (k + 1) := by unfold G.extAttrArgList; infer_instance
instance : Tame l G.extAttrNamedArgList l 7 (k + 1) := by unfold G.extAttrNamedArgList; infer_instance
instance : Tame l G.extAttrIdentList l 6 (k + 1) := by unfold G.extAttrIdentList; infer_instance
instance : Tame l G.extAttrIdent l 4 k := by unfold G.extAttrIdent; infer_instance
instance : Tame l G.extAttrWildcard l 3 k := by unfold G.extAttrWildcard; infer_instance
instance : Tame l G.extAttrNoArgs l 1 k := by unfold G.extAttrNoArgs; infer_instance
instance : Tame l G.extAttr l 26 (k + 1) := by unfold G.extAttr; infer_instance
instance : Tame l G.extAttrList l 29 (k + 2) := by unfold G.extAttrList; infer_instance
instance : Tame l G.attrs l 29 (k + 2) := by unfold G.attrs; infer_instance
instance : Tame l G.longLongType l 3 k := by unfold G.longLongType; infer_instance
instance : Tame l G.longType l 2 k := by unfold G.longType; infer_instance
instance : Tame l G.shortType l 2 k := by unfold G.shortType; infer_instance
instance : Tame l G.integerType l 7 k := by unfold G.integerType; infer_instance
instance : Tame l G.floatType l 2 k := by unfold G.floatType; infer_instance
instance : Tame l G.doubleType l 2 k := by unfold G.doubleType; infer_instance
instance : Tame l G.floatingPointType l 4 k := by unfold G.floatingPointType; infer_instance
instance : Tame l G.unionType l 4 (k + 1) := by unfold G.unionType; infer_instance
instance : Tame l G.promiseType l 5 k := by unfold G.promiseType; infer_instance
instance : Tame l G.sequenceType l 4 k := by unfold G.sequenceType; infer_instance
instance : Tame l G.frozenArrayType l 4 k := by unfold G.frozenArrayType; infer_instance
instance : Tame l G.recordType l 9 k :=
  .bind (st := true) .leaf (.leaf inferInstance) fun _ => (inferInstance : Tame l (G.generics (do
    let key ← G.recordKeyType
    G.punct .comma
    let value ← G.call .type
    pure (key, value))) l 8 k)
instance : Tame l G.nonAnyType l 84 k := by unfold G.nonAnyType; infer_instance
instance : Tame l G.singleType l 85 k := by unfold G.singleType; infer_instance
instance : Tame l G.type l 90 (k + 1) := by unfold G.type; infer_instance
instance : Tame l G.attributedNonAnyType l 113 (k + 2) := by unfold G.attributedNonAnyType; infer_instance
instance : Tame l G.unionMemberType l 118 (k + 2) := by unfold G.unionMemberType; infer_instance
instance : Tame l G.constType l 21 k := by unfold G.constType; infer_instance
instance : Tame l G.returnType l 91 (k + 1) := by unfold G.returnType; infer_instance
instance : Tame l G.attributedType l 119 (k + 2) := by unfold G.attributedType; infer_instance
instance : Tame l G.singleArgument l 166 (k + 2) := by unfold G.singleArgument; infer_instance
instance : Tame l G.variadicArgument l 121 (k + 2) := by unfold G.variadicArgument; infer_instance
instance : Tame l G.argument l 287 (k + 2) := by unfold G.argument; infer_instance
instance : Tame l G.inheritance l 2 k := by unfold G.inheritance; infer_instance
instance : Tame l G.constMember l 64 (k + 2) := by unfold G.constMember; infer_instance
instance : Tame l G.stringifierOrInheritOrStatic l 3 k := by unfold G.stringifierOrInheritOrStatic; infer_instance
instance : Tame l G.stringifierOrStatic l 2 k := by unfold G.stringifierOrStatic; infer_instance
instance : Tame l G.special l 4 k := by unfold G.special; infer_instance
instance : Tame l G.attributeInterfaceMember l 155 (k + 2) := by unfold G.attributeInterfaceMember; infer_instance
instance : Tame l G.constructorInterfaceMember l 35 (k + 2) := by unfold G.constructorInterfaceMember; infer_instance
instance : Tame l G.operationInterfaceMember l 132 (k + 2) := by unfold G.operationInterfaceMember; infer_instance
instance : Tame l G.attributedTypePair l 239 (k + 2) := by unfold G.attributedTypePair; infer_instance
instance : Tame l G.singleTypedIterable l 152 (k + 2) := by unfold G.singleTypedIterable; infer_instance
instance : Tame l G.doubleTypedIterable l 272 (k + 2) := by unfold G.doubleTypedIterable; infer_instance
instance : Tame l G.iterableInterfaceMember l 424 (k + 2) := by unfold G.iterableInterfaceMember; infer_instance
instance : Tame l G.singleTypedAsyncIterable l 157 (k + 2) := by unfold G.singleTypedAsyncIterable; infer_instance
instance : Tame l G.doubleTypedAsyncIterable l 277 (k + 2) := by unfold G.doubleTypedAsyncIterable; infer_instance
instance : Tame l G.asyncIterableInterfaceMember l 434 (k + 2) := by unfold G.asyncIterableInterfaceMember; infer_instance
instance : Tame l G.maplikeInterfaceMember l 273 (k + 2) := by unfold G.maplikeInterfaceMember; infer_instance
instance : Tame l G.setlikeInterfaceMember l 153 (k + 2) := by unfold G.setlikeInterfaceMember; infer_instance
instance : Tame l G.stringifierMember l 31 (k + 2) := by unfold G.stringifierMember; infer_instance
instance : Tame l G.interfaceMember l 1701 (k + 2) := by unfold G.interfaceMember; infer_instance
instance : Tame l G.interfaceMembers l 1701 (k + 3) := by unfold G.interfaceMembers; infer_instance
instance : Tame l G.operationMixinMember l 127 (k + 2) := by unfold G.operationMixinMember; infer_instance
instance : Tame l G.attributeMixinMember l 153 (k + 2) := by unfold G.attributeMixinMember; infer_instance
instance : Tame l G.mixinMember l 375 (k + 2) := by unfold G.mixinMember; infer_instance
instance : Tame l G.mixinMembers l 375 (k + 3) := by unfold G.mixinMembers; infer_instance
instance : Tame l G.operationNamespaceMember l 126 (k + 2) := by unfold G.operationNamespaceMember; infer_instance
instance : Tame l G.attributeNamespaceMember l 152 (k + 2) := by unfold G.attributeNamespaceMember; infer_instance
instance : Tame l G.namespaceMember l 342 (k + 2) := by unfold G.namespaceMember; infer_instance
instance : Tame l G.namespaceMembers l 342 (k + 3) := by unfold G.namespaceMembers; infer_instance
instance : Tame l G.dictionaryMember l 138 (k + 2) := by unfold G.dictionaryMember; infer_instance
instance : Tame l G.dictionaryMembers l 138 (k + 3) := by unfold G.dictionaryMembers; infer_instance
instance : Tame l G.callbackDefinition l 128 (k + 2) := by unfold G.callbackDefinition; infer_instance
instance : Tame l G.callbackInterfaceDefinition l 1738 (k + 3) := by unfold G.callbackInterfaceDefinition; infer_instance
instance : Tame l G.interfaceDefinition l 1737 (k + 3) := by unfold G.interfaceDefinition; infer_instance
instance : Tame l G.interfaceMixinDefinition l 410 (k + 3) := by unfold G.interfaceMixinDefinition; infer_instance
instance : Tame l G.namespaceDefinition l 376 (k + 3) := by unfold G.namespaceDefinition; infer_instance
instance : Tame l G.dictionaryDefinition l 174 (k + 3) := by unfold G.dictionaryDefinition; infer_instance
instance : Tame l G.partialInterfaceDefinition l 1736 (k + 3) := by unfold G.partialInterfaceDefinition; infer_instance
instance : Tame l G.partialInterfaceMixinDefinition l 411 (k + 3) := by unfold G.partialInterfaceMixinDefinition; infer_instance
instance : Tame l G.partialDictionaryDefinition l 173 (k + 3) := by unfold G.partialDictionaryDefinition; infer_instance
instance : Tame l G.partialNamespaceDefinition l 377 (k + 3) := by unfold G.partialNamespaceDefinition; infer_instance
instance : Tame l G.enumValueList l 3 (k + 1) := by unfold G.enumValueList; infer_instance
instance : Tame l G.enumDefinition l 37 (k + 2) := by unfold G.enumDefinition; infer_instance
instance : Tame l G.typedefDefinition l 151 (k + 2) := by unfold G.typedefDefinition; infer_instance
instance : Tame l G.includesStatementDefinition l 33 (k + 2) := by unfold G.includesStatementDefinition; infer_instance
instance : Tame l G.implementsDefinition l 33 (k + 2) := by unfold G.implementsDefinition; infer_instance
instance : Tame l G.definition l 7514 (k + 3) := by unfold G.definition; infer_instance
instance : Tame l G.definitions l 7514 (k + 4) := by unfold G.definitions; infer_instance

end Tame

theorem tame_body (α : Type) (N : NT α) : Tame 0 (G.body N) 0 287 2 := by
  cases N with
  | type => exact .mono (inferInstance : Tame 0 G.type 0 _ 2) (by decide)
  | nonAny => exact .mono (inferInstance : Tame 0 G.nonAnyType 0 _ 2) (by decide)
  | unionMember => exact .mono (inferInstance : Tame 0 G.unionMemberType 0 _ 2) (by decide)
  | argument => exact (inferInstance : Tame 0 G.argument 0 _ 2)

/-! ## Deep recursion -/

theorem nesting_zero (m : Inside) (s : Str) (hs : ∀ c ∈ s, c ∉ ['(', '<']) : nesting m s = 0 := by
  fun_induction nesting m s <;> simp_all

theorem nest_nestedArg (n : Nat) (u : Str) : nest (nestedArg n ++ u) = max n (nest u) := by
  induction n generalizing u with
  | zero => simp [nestedArg, nest, nesting]
  | succ n ih =>
    have h1 : nest (nestedArg (n + 1) ++ u) = nest (nestedArg n ++ (')' :: (c!"]T...x" ++ u))) + 1 := by
      simp [nestedArg, nest, nesting]
    have h2 : nest (')' :: (c!"]T...x" ++ u)) = nest u - 1 := by
      simp [nest, nesting]
    rw [h1, ih, h2]
    omega

theorem nest_nestedDoc (n : Nat) : nest (nestedDoc n) = n + 1 := by
  have h1 : nest (nestedDoc n) = nest (nestedArg n ++ c!")]typedef T x;") + 1 := by
    simp [nestedDoc, nest, nesting]
  rw [h1, nest_nestedArg, show nest c!")]typedef T x;" = 0 from rfl]
  simp

theorem attrs_diverge {nt : ∀ α, NT α → P Char α} {n : Nat} {u : Str}
    (h : nt _ .argument (nestedArg n ++ u) = .diverge) :
    G.attrs.run charLeaf nt (c!"[A(" ++ (nestedArg n ++ u)) = .diverge := by
  have h1 : charLeaf _ (.punct .openBracket) (c!"[A(" ++ (nestedArg n ++ u)) = .ok (c!"A(" ++ (nestedArg n ++ u)) () := by
    rfl
  have h2 : charLeaf _ .ident (c!"A" ++ (c!"(" ++ (nestedArg n ++ u))) = .ok (c!"(" ++ (nestedArg n ++ u)) c!"A" :=
    (Runs.inv (ident_run (e := c!"(" ++ (nestedArg n ++ u)) word_A (nameEnd_cons rfl) (noTrivia_iff.2 rfl))).2.symm
  have h3 : charLeaf _ (.punct .openParen) (c!"(" ++ (nestedArg n ++ u)) = .ok (nestedArg n ++ u) () :=
    (Runs.inv (punct_run .openParen _ (nestedArg_head n u) (noTrivia_iff.2 rfl))).2.symm
  have h4 : G.argumentList.run charLeaf nt (nestedArg n ++ u) = .diverge := by
    simp only [G.argumentList, G.commaList, G.punctuated, G.run, Nom.separatedList, h]
  have h5 : G.extAttrArgList.run charLeaf nt (c!"A" ++ (c!"(" ++ (nestedArg n ++ u))) = .diverge := by
    simp only [G.extAttrArgList, G.ident, G.run, Nom.seq, h2, bind, G.parenthesized, G.punct, h3, h4]
  have h6 : G.extAttr.run charLeaf nt (c!"A" ++ (c!"(" ++ (nestedArg n ++ u))) = .diverge := by
    simp only [G.extAttr, G.alts, G.run, Nom.orElse, h5]
  have h7 : (G.commaList G.extAttr).run charLeaf nt (c!"A" ++ (c!"(" ++ (nestedArg n ++ u))) = .diverge := by
    simp only [G.commaList, G.punctuated, G.run, Nom.separatedList, h6]
  simp only [G.attrs, G.extAttrList, G.bracketed, bind, G.run, Nom.opt, Nom.seq, G.punct, h1]
  simp only [show c!"A(" ++ (nestedArg n ++ u) = c!"A" ++ (c!"(" ++ (nestedArg n ++ u)) from rfl, h7]

theorem nestedArg_diverge (n : Nat) (u : Str) : ntRun charLeaf n _ .argument (nestedArg n ++ u) = .diverge := by
  induction n generalizing u with
  | zero => rfl
  | succ n ih =>
    have h1 := attrs_diverge (ih (c!")]T...x" ++ u))
    have h2 : G.singleArgument.run charLeaf (ntRun charLeaf n) (c!"[A(" ++ (nestedArg n ++ (c!")]T...x" ++ u))) = .diverge := by
      simp only [G.singleArgument, bind, G.run, Nom.seq, h1]
    have h3 : G.argument.run charLeaf (ntRun charLeaf n) (c!"[A(" ++ (nestedArg n ++ (c!")]T...x" ++ u))) = .diverge := by
      simp only [G.argument, G.alts, G.variant, bind, G.run, Nom.orElse, Nom.seq, h2]
    rw [show nestedArg (n + 1) ++ u = c!"[A(" ++ (nestedArg n ++ (c!")]T...x" ++ u)) by simp [nestedArg]]
    exact h3

theorem nestedDoc_diverge (n : Nat) : G.definitions.run charLeaf (ntRun charLeaf n) (nestedDoc n) = .diverge := by
  have h1 := attrs_diverge (nestedArg_diverge n c!")]typedef T x;")
  have h2 : G.callbackDefinition.run charLeaf (ntRun charLeaf n) (nestedDoc n) = .diverge := by
    simp only [nestedDoc, List.append_assoc]
    simp only [G.callbackDefinition, bind, G.run, Nom.seq, h1]
  have h3 : G.definition.run charLeaf (ntRun charLeaf n) (nestedDoc n) = .diverge := by
    simp only [G.definition, G.alts, G.variant, bind, G.run, Nom.orElse, Nom.seq, h2]
  simp only [G.definitions, G.run, Nom.many0, many0Loop, h3]

end Verif
