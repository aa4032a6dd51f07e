import Verif.Source.Value

/-! # Different ASTs are different Rust values -/

namespace Verif.Source

section
variable {α : Type} {f : α → Val}

theorem flag_inj {v : Val} {b c : Bool} (h : flagVal v b = flagVal v c) : b = c := by
  cases b <;> cases c <;> simp_all [flagVal]

theorem opt_inj (hf : ∀ a b, f a = f b → a = b) {a b : Option α} (h : optVal f a = optVal f b) : a = b := by
  cases a <;> cases b <;> simp [optVal] at h
  · rfl
  · rw [hf _ _ h]

theorem list_inj (hf : ∀ a b, f a = f b → a = b) {as bs : List α} (h : as.map f = bs.map f) : as = bs := by
  induction as generalizing bs with
  | nil => cases bs <;> simp_all
  | cons a as ih =>
    cases bs with
    | nil => simp at h
    | cons b bs =>
      simp only [List.map_cons, List.cons.injEq] at h
      rw [hf _ _ h.1, ih h.2]

theorem null_inj {v w : Val} {b c : Bool} (h : nullVal v b = nullVal w c) : v = w ∧ b = c := by
  simp only [nullVal, Val.struct.injEq, List.cons.injEq, Prod.mk.injEq, true_and, and_true] at h
  exact ⟨h.1, flag_inj h.2⟩

theorem paren_inj {v w : Val} (h : parenVal v = parenVal w) : v = w := by simpa [parenVal] using h

theorem bracket_inj {v w : Val} (h : bracketVal v = bracketVal w) : v = w := by simpa [bracketVal] using h

theorem brace_inj {v w : Val} (h : braceVal v = braceVal w) : v = w := by simpa [braceVal] using h

theorem generics_inj {v w : Val} (h : genericsVal v = genericsVal w) : v = w := by simpa [genericsVal] using h

theorem punctuated_inj {s : Val} {v w : List Val} (h : punctuatedVal s v = punctuatedVal s w) : v = w := by
  simpa [punctuatedVal] using h

theorem punctuatedNonEmpty_inj {s : Val} {v w : List Val} (h : punctuatedNonEmptyVal s v = punctuatedNonEmptyVal s w) :
    v = w := by
  simpa [punctuatedNonEmptyVal] using h

theorem body_inj (hf : ∀ a b, f a = f b → a = b) {as bs : List α} (h : bodyVal f as = bodyVal f bs) : as = bs := by
  have := brace_inj h
  simp only [Val.list.injEq] at this
  exact list_inj hf this

end

theorem ident_inj (a b : Str) (h : identVal a = identVal b) : a = b := by simpa [identVal] using h

theorem string_inj (a b : Str) (h : stringVal a = stringVal b) : a = b := by simpa [stringVal] using h

theorem integerLit_inj (a b : IntegerLit) (h : integerLitVal a = integerLitVal b) : a = b := by
  cases a <;> cases b <;> simp_all [integerLitVal, decVal, hexVal, octVal]

theorem floatLit_inj (a b : FloatLit) (h : floatLitVal a = floatLitVal b) : a = b := by
  cases a <;> cases b <;> simp_all [floatLitVal, floatValueVal, kwVal]

theorem defaultValue_inj (a b : DefaultValue) (h : defaultValueVal a = defaultValueVal b) : a = b := by
  cases a <;> cases b <;> simp [defaultValueVal, booleanVal, stringVal] at h <;> first
    | rfl
    | rw [h]
    | rw [floatLit_inj _ _ h]
    | rw [integerLit_inj _ _ h]

theorem constValue_inj (a b : ConstValue) (h : constValueVal a = constValueVal b) : a = b := by
  cases a <;> cases b <;> simp [constValueVal, booleanVal] at h <;> first
    | rfl
    | rw [h]
    | rw [floatLit_inj _ _ h]
    | rw [integerLit_inj _ _ h]

theorem default_inj (a b : DefaultValue) (h : defaultVal a = defaultVal b) : a = b :=
  defaultValue_inj a b (by simpa [defaultVal] using h)

theorem integerType_inj (a b : IntegerType) (h : integerTypeVal a = integerTypeVal b) : a = b := by
  cases a <;> cases b <;> simp [integerTypeVal] at h <;> rw [flag_inj h]

theorem floatingPointType_inj (a b : FloatingPointType) (h : floatingPointTypeVal a = floatingPointTypeVal b) : a = b := by
  cases a <;> cases b <;> simp [floatingPointTypeVal] at h <;> rw [flag_inj h]

theorem identifierOrString_inj (a b : IdentifierOrString) (h : identifierOrStringVal a = identifierOrStringVal b) :
    a = b := by
  cases a <;> cases b <;> simp_all [identifierOrStringVal, identVal, stringVal]

theorem builtin_inj (a b : Builtin) (h : builtinName a = builtinName b) : a = b := by
  cases a <;> cases b <;> first
    | rfl
    | exact absurd h (by decide)

theorem builtin_name (b : Builtin) : builtinName b ∉
    [c!"Promise", c!"Integer", c!"FloatingPoint", c!"Sequence", c!"FrozenArrayType", c!"RecordType", c!"Identifier"] := by
  cases b <;> decide

mutual

theorem type_inj : ∀ a b, typeVal a = typeVal b → a = b
  | .single t, .single t', h => by
    simp only [typeVal, Val.variant.injEq, true_and] at h
    rw [singleType_inj _ _ h]
  | .union ms q, .union ms' q', h => by
    simp only [typeVal, Val.variant.injEq, true_and] at h
    have h := null_inj h
    rw [unionMembers_inj _ _ (punctuated_inj (paren_inj h.1)), h.2]
  | .single _, .union .., h => by simp [typeVal] at h
  | .union .., .single _, h => by simp [typeVal] at h

theorem singleType_inj : ∀ a b, singleTypeVal a = singleTypeVal b → a = b
  | .any, .any, _ => rfl
  | .nonAny t, .nonAny t', h => by
    simp only [singleTypeVal, Val.variant.injEq, true_and] at h
    rw [nonAnyType_inj _ _ h]
  | .any, .nonAny _, h => by simp [singleTypeVal] at h
  | .nonAny _, .any, h => by simp [singleTypeVal] at h

theorem nonAnyType_inj : ∀ a b, nonAnyTypeVal a = nonAnyTypeVal b → a = b
  | .promise r, b, h => by
    cases b with
    | promise r' =>
      simp only [nonAnyTypeVal, Val.variant.injEq, true_and, Val.struct.injEq, List.cons.injEq, Prod.mk.injEq, and_true] at h
      have := generics_inj h
      simp only [Val.box.injEq] at this
      rw [returnType_inj _ _ this]
    | builtin b q =>
      simp only [nonAnyTypeVal, Val.variant.injEq, true_and] at h
      exact absurd h.1.symm (fun e => builtin_name b (by simp [e]))
    | _ => simp [nonAnyTypeVal] at h
  | .integer t q, b, h => by
    cases b with
    | integer t' q' =>
      simp only [nonAnyTypeVal, Val.variant.injEq, true_and] at h
      rw [integerType_inj _ _ (null_inj h).1, (null_inj h).2]
    | builtin b q' =>
      simp only [nonAnyTypeVal, Val.variant.injEq, true_and] at h
      exact absurd h.1.symm (fun e => builtin_name b (by simp [e]))
    | _ => simp [nonAnyTypeVal] at h
  | .floatingPoint t q, b, h => by
    cases b with
    | floatingPoint t' q' =>
      simp only [nonAnyTypeVal, Val.variant.injEq, true_and] at h
      rw [floatingPointType_inj _ _ (null_inj h).1, (null_inj h).2]
    | builtin b q' =>
      simp only [nonAnyTypeVal, Val.variant.injEq, true_and] at h
      exact absurd h.1.symm (fun e => builtin_name b (by simp [e]))
    | _ => simp [nonAnyTypeVal] at h
  | .builtin b q, c, h => by
    cases c with
    | builtin b' q' =>
      simp only [nonAnyTypeVal, Val.variant.injEq, true_and] at h
      rw [builtin_inj _ _ h.1, (null_inj h.2).2]
    | _ =>
      simp only [nonAnyTypeVal, Val.variant.injEq, true_and] at h
      exact absurd h.1 (fun e => builtin_name b (by simp [e]))
  | .sequence t q, b, h => by
    cases b with
    | sequence t' q' =>
      simp only [nonAnyTypeVal, Val.variant.injEq, true_and] at h
      have h := null_inj h
      simp only [Val.struct.injEq, List.cons.injEq, Prod.mk.injEq, true_and, and_true] at h
      have := generics_inj h.1
      simp only [Val.box.injEq] at this
      rw [type_inj _ _ this, h.2]
    | builtin b q' =>
      simp only [nonAnyTypeVal, Val.variant.injEq, true_and] at h
      exact absurd h.1.symm (fun e => builtin_name b (by simp [e]))
    | _ => simp [nonAnyTypeVal] at h
  | .frozenArray t q, b, h => by
    cases b with
    | frozenArray t' q' =>
      simp only [nonAnyTypeVal, Val.variant.injEq, true_and] at h
      have h := null_inj h
      simp only [Val.struct.injEq, List.cons.injEq, Prod.mk.injEq, true_and, and_true] at h
      have := generics_inj h.1
      simp only [Val.box.injEq] at this
      rw [type_inj _ _ this, h.2]
    | builtin b q' =>
      simp only [nonAnyTypeVal, Val.variant.injEq, true_and] at h
      exact absurd h.1.symm (fun e => builtin_name b (by simp [e]))
    | _ => simp [nonAnyTypeVal] at h
  | .record k v q, b, h => by
    cases b with
    | record k' v' q' =>
      simp only [nonAnyTypeVal, Val.variant.injEq, true_and] at h
      have h := null_inj h
      simp only [Val.struct.injEq, List.cons.injEq, Prod.mk.injEq, true_and, and_true] at h
      have := generics_inj h.1
      simp only [Val.triple.injEq, Val.box.injEq, true_and] at this
      rw [recordKeyType_inj _ _ this.1, type_inj _ _ this.2, h.2]
    | builtin b q' =>
      simp only [nonAnyTypeVal, Val.variant.injEq, true_and] at h
      exact absurd h.1.symm (fun e => builtin_name b (by simp [e]))
    | _ => simp [nonAnyTypeVal] at h
  | .identifier s q, b, h => by
    cases b with
    | identifier s' q' =>
      simp only [nonAnyTypeVal, Val.variant.injEq, true_and] at h
      rw [ident_inj _ _ (null_inj h).1, (null_inj h).2]
    | builtin b q' =>
      simp only [nonAnyTypeVal, Val.variant.injEq, true_and] at h
      exact absurd h.1.symm (fun e => builtin_name b (by simp [e]))
    | _ => simp [nonAnyTypeVal] at h

theorem recordKeyType_inj : ∀ a b, recordKeyTypeVal a = recordKeyTypeVal b → a = b
  | .byte, b, h => by cases b <;> simp [recordKeyTypeVal] at h; rfl
  | .dom, b, h => by cases b <;> simp [recordKeyTypeVal] at h; rfl
  | .usv, b, h => by cases b <;> simp [recordKeyTypeVal] at h; rfl
  | .nonAny t, b, h => by
    cases b <;> simp [recordKeyTypeVal] at h
    rw [nonAnyType_inj _ _ h]

theorem unionMember_inj : ∀ a b, unionMemberVal a = unionMemberVal b → a = b
  | .single as t, b, h => by
    cases b <;> simp [unionMemberVal] at h
    rw [attrs_inj _ _ h.1, nonAnyType_inj _ _ h.2]
  | .union ms q, b, h => by
    cases b <;> simp [unionMemberVal] at h
    have h := null_inj h
    rw [unionMembers_inj _ _ (punctuated_inj (paren_inj h.1)), h.2]

theorem unionMembers_inj : ∀ as bs, unionMemberVals as = unionMemberVals bs → as = bs
  | [], b, h => by cases b <;> simp [unionMemberVals] at h; rfl
  | a :: as, b, h => by
    cases b <;> simp [unionMemberVals] at h
    rw [unionMember_inj _ _ h.1, unionMembers_inj _ _ h.2]

theorem returnType_inj : ∀ a b, returnTypeVal a = returnTypeVal b → a = b
  | .undefined, b, h => by cases b <;> simp [returnTypeVal] at h; rfl
  | .type t, b, h => by
    cases b <;> simp [returnTypeVal] at h
    rw [type_inj _ _ h]

theorem extAttr_inj : ∀ a b, extAttrVal a = extAttrVal b → a = b
  | .argList i args, b, h => by
    cases b <;> simp [extAttrVal] at h
    rw [ident_inj _ _ h.1, arguments_inj _ _ (punctuated_inj (paren_inj h.2))]
  | .namedArgList l r args, b, h => by
    cases b <;> simp [extAttrVal] at h
    rw [ident_inj _ _ h.1, ident_inj _ _ h.2.1, arguments_inj _ _ (punctuated_inj (paren_inj h.2.2))]
  | .identList i l, b, h => by
    cases b <;> simp [extAttrVal] at h
    rw [ident_inj _ _ h.1, list_inj ident_inj (punctuated_inj (paren_inj h.2))]
  | .ident l r, b, h => by
    cases b <;> simp [extAttrVal] at h
    · rw [ident_inj _ _ h.1, identifierOrString_inj _ _ h.2]
  | .wildcard l, b, h => by
    cases b <;> simp [extAttrVal] at h
    · rw [ident_inj _ _ h]
  | .noArgs i, b, h => by
    cases b <;> simp [extAttrVal] at h
    rw [ident_inj _ _ h]

theorem extAttrs_inj : ∀ as bs, extAttrVals as = extAttrVals bs → as = bs
  | [], b, h => by cases b <;> simp [extAttrVals] at h; rfl
  | a :: as, b, h => by
    cases b <;> simp [extAttrVals] at h
    rw [extAttr_inj _ _ h.1, extAttrs_inj _ _ h.2]

theorem attrs_inj : ∀ a b, attrsVal a = attrsVal b → a = b
  | none, b, h => by cases b <;> simp [attrsVal] at h; rfl
  | some as, b, h => by
    cases b <;> simp [attrsVal] at h
    rw [extAttrs_inj _ _ (punctuated_inj (bracket_inj h))]

theorem attributedType_inj : ∀ a b, attributedTypeVal a = attributedTypeVal b → a = b
  | .mk as t, .mk as' t', h => by
    simp [attributedTypeVal] at h
    rw [attrs_inj _ _ h.1, type_inj _ _ h.2]

theorem argument_inj : ∀ a b, argumentVal a = argumentVal b → a = b
  | .single as o t i d, b, h => by
    cases b <;> simp [argumentVal] at h
    rw [attrs_inj _ _ h.1, flag_inj h.2.1, attributedType_inj _ _ h.2.2.1, ident_inj _ _ h.2.2.2.1,
      opt_inj default_inj h.2.2.2.2]
  | .variadic as t i, b, h => by
    cases b <;> simp [argumentVal] at h
    rw [attrs_inj _ _ h.1, type_inj _ _ h.2.1, ident_inj _ _ h.2.2]

theorem arguments_inj : ∀ as bs, argumentVals as = argumentVals bs → as = bs
  | [], b, h => by cases b <;> simp [argumentVals] at h; rfl
  | a :: as, b, h => by
    cases b <;> simp [argumentVals] at h
    rw [argument_inj _ _ h.1, arguments_inj _ _ h.2]

end

theorem args_inj (a b : List Argument) (h : argsVal a = argsVal b) : a = b :=
  arguments_inj _ _ (punctuated_inj (paren_inj h))

theorem constType_inj (a b : ConstType) (h : constTypeVal a = constTypeVal b) : a = b := by
  cases a <;> cases b <;> simp [constTypeVal] at h <;> have h := null_inj h
  · rw [integerType_inj _ _ h.1, h.2]
  · rw [floatingPointType_inj _ _ h.1, h.2]
  · rw [h.2]
  · rw [h.2]
  · rw [h.2]
  · rw [ident_inj _ _ h.1, h.2]

theorem attributedTypePair_inj (a b : AttributedType × AttributedType)
    (h : attributedTypePairVal a = attributedTypePairVal b) : a = b := by
  simp only [attributedTypePairVal, Val.triple.injEq, true_and] at h
  exact Prod.ext (attributedType_inj _ _ h.1) (attributedType_inj _ _ h.2)

theorem inheritance_inj (a b : Str) (h : inheritanceVal a = inheritanceVal b) : a = b :=
  ident_inj a b (by simpa [inheritanceVal] using h)

theorem const_inj {n : Str} (a b : ConstMember) (h : constVal n a = constVal n b) : a = b := by
  cases a; cases b
  simp [constVal] at h
  rw [attrs_inj _ _ h.1, constType_inj _ _ h.2.1, ident_inj _ _ h.2.2.1, constValue_inj _ _ h.2.2.2]

theorem special_inj (a b : Special) (h : specialVal a = specialVal b) : a = b := by
  cases a <;> cases b <;> simp_all [specialVal]

theorem stringifierOrInheritOrStatic_inj (a b : StringifierOrInheritOrStatic)
    (h : stringifierOrInheritOrStaticVal a = stringifierOrInheritOrStaticVal b) : a = b := by
  cases a <;> cases b <;> simp_all [stringifierOrInheritOrStaticVal]

theorem stringifierOrStatic_inj (a b : StringifierOrStatic) (h : stringifierOrStaticVal a = stringifierOrStaticVal b) :
    a = b := by
  cases a <;> cases b <;> simp_all [stringifierOrStaticVal]

theorem attributeInterfaceMember_inj (a b : AttributeInterfaceMember)
    (h : attributeInterfaceMemberVal a = attributeInterfaceMemberVal b) : a = b := by
  cases a; cases b
  simp [attributeInterfaceMemberVal] at h
  rw [attrs_inj _ _ h.1, opt_inj stringifierOrInheritOrStatic_inj h.2.1, flag_inj h.2.2.1,
    attributedType_inj _ _ h.2.2.2.1, ident_inj _ _ h.2.2.2.2]

theorem constructorInterfaceMember_inj (a b : ConstructorInterfaceMember)
    (h : constructorInterfaceMemberVal a = constructorInterfaceMemberVal b) : a = b := by
  cases a; cases b
  simp [constructorInterfaceMemberVal] at h
  rw [attrs_inj _ _ h.1, args_inj _ _ h.2]

theorem operationInterfaceMember_inj (a b : OperationInterfaceMember)
    (h : operationInterfaceMemberVal a = operationInterfaceMemberVal b) : a = b := by
  cases a; cases b
  simp [operationInterfaceMemberVal] at h
  rw [attrs_inj _ _ h.1, opt_inj stringifierOrStatic_inj h.2.1, opt_inj special_inj h.2.2.1, returnType_inj _ _ h.2.2.2.1,
    opt_inj ident_inj h.2.2.2.2.1, args_inj _ _ h.2.2.2.2.2]

theorem iterableInterfaceMember_inj (a b : IterableInterfaceMember)
    (h : iterableInterfaceMemberVal a = iterableInterfaceMemberVal b) : a = b := by
  cases a <;> cases b <;> simp [iterableInterfaceMemberVal] at h
  · rw [attrs_inj _ _ h.1, attributedType_inj _ _ (generics_inj h.2)]
  · rw [attrs_inj _ _ h.1, attributedTypePair_inj _ _ (generics_inj h.2)]

theorem asyncIterableInterfaceMember_inj (a b : AsyncIterableInterfaceMember)
    (h : asyncIterableInterfaceMemberVal a = asyncIterableInterfaceMemberVal b) : a = b := by
  cases a <;> cases b <;> simp [asyncIterableInterfaceMemberVal] at h
  · rw [attrs_inj _ _ h.1, attributedType_inj _ _ (generics_inj h.2.1), opt_inj args_inj h.2.2]
  · rw [attrs_inj _ _ h.1, attributedTypePair_inj _ _ (generics_inj h.2.1), opt_inj args_inj h.2.2]

theorem maplikeInterfaceMember_inj (a b : MaplikeInterfaceMember)
    (h : maplikeInterfaceMemberVal a = maplikeInterfaceMemberVal b) : a = b := by
  cases a; cases b
  simp [maplikeInterfaceMemberVal] at h
  rw [attrs_inj _ _ h.1, flag_inj h.2.1, attributedTypePair_inj _ _ (generics_inj h.2.2)]

theorem setlikeInterfaceMember_inj (a b : SetlikeInterfaceMember)
    (h : setlikeInterfaceMemberVal a = setlikeInterfaceMemberVal b) : a = b := by
  cases a; cases b
  simp [setlikeInterfaceMemberVal] at h
  rw [attrs_inj _ _ h.1, flag_inj h.2.1, attributedType_inj _ _ (generics_inj h.2.2)]

theorem stringifierMember_inj (a b : StringifierMember) (h : stringifierMemberVal a = stringifierMemberVal b) : a = b := by
  cases a; cases b
  simp [stringifierMemberVal] at h
  rw [attrs_inj _ _ h]

theorem interfaceMember_inj (a b : InterfaceMember) (h : interfaceMemberVal a = interfaceMemberVal b) : a = b := by
  cases a <;> cases b <;> simp [interfaceMemberVal] at h
  · rw [const_inj _ _ h]
  · rw [attributeInterfaceMember_inj _ _ h]
  · rw [constructorInterfaceMember_inj _ _ h]
  · rw [operationInterfaceMember_inj _ _ h]
  · rw [iterableInterfaceMember_inj _ _ h]
  · rw [asyncIterableInterfaceMember_inj _ _ h]
  · rw [maplikeInterfaceMember_inj _ _ h]
  · rw [setlikeInterfaceMember_inj _ _ h]
  · rw [stringifierMember_inj _ _ h]

theorem operationMixinMember_inj (a b : OperationMixinMember)
    (h : operationMixinMemberVal a = operationMixinMemberVal b) : a = b := by
  cases a; cases b
  simp [operationMixinMemberVal] at h
  rw [attrs_inj _ _ h.1, flag_inj h.2.1, returnType_inj _ _ h.2.2.1, opt_inj ident_inj h.2.2.2.1, args_inj _ _ h.2.2.2.2]

theorem attributeMixinMember_inj (a b : AttributeMixinMember)
    (h : attributeMixinMemberVal a = attributeMixinMemberVal b) : a = b := by
  cases a; cases b
  simp [attributeMixinMemberVal] at h
  rw [attrs_inj _ _ h.1, flag_inj h.2.1, flag_inj h.2.2.1, attributedType_inj _ _ h.2.2.2.1, ident_inj _ _ h.2.2.2.2]

theorem mixinMember_inj (a b : MixinMember) (h : mixinMemberVal a = mixinMemberVal b) : a = b := by
  cases a <;> cases b <;> simp [mixinMemberVal] at h
  · rw [const_inj _ _ h]
  · rw [operationMixinMember_inj _ _ h]
  · rw [attributeMixinMember_inj _ _ h]
  · rw [stringifierMember_inj _ _ h]

theorem operationNamespaceMember_inj (a b : OperationNamespaceMember)
    (h : operationNamespaceMemberVal a = operationNamespaceMemberVal b) : a = b := by
  cases a; cases b
  simp [operationNamespaceMemberVal] at h
  rw [attrs_inj _ _ h.1, returnType_inj _ _ h.2.1, opt_inj ident_inj h.2.2.1, args_inj _ _ h.2.2.2]

theorem attributeNamespaceMember_inj (a b : AttributeNamespaceMember)
    (h : attributeNamespaceMemberVal a = attributeNamespaceMemberVal b) : a = b := by
  cases a; cases b
  simp [attributeNamespaceMemberVal] at h
  rw [attrs_inj _ _ h.1, attributedType_inj _ _ h.2.1, ident_inj _ _ h.2.2]

theorem namespaceMember_inj (a b : NamespaceMember) (h : namespaceMemberVal a = namespaceMemberVal b) : a = b := by
  cases a <;> cases b <;> simp [namespaceMemberVal] at h
  · rw [const_inj _ _ h]
  · rw [operationNamespaceMember_inj _ _ h]
  · rw [attributeNamespaceMember_inj _ _ h]

theorem dictionaryMember_inj (a b : DictionaryMember) (h : dictionaryMemberVal a = dictionaryMemberVal b) : a = b := by
  cases a; cases b
  simp [dictionaryMemberVal] at h
  rw [attrs_inj _ _ h.1, flag_inj h.2.1, type_inj _ _ h.2.2.1, ident_inj _ _ h.2.2.2.1, opt_inj default_inj h.2.2.2.2]

theorem definition_inj (a b : Definition) (h : definitionVal a = definitionVal b) : a = b := by
  cases a <;> cases b <;> simp [definitionVal] at h
  · rw [attrs_inj _ _ h.1, ident_inj _ _ h.2.1, returnType_inj _ _ h.2.2.1, args_inj _ _ h.2.2.2]
  · rw [attrs_inj _ _ h.1, ident_inj _ _ h.2.1, opt_inj inheritance_inj h.2.2.1, body_inj interfaceMember_inj h.2.2.2]
  · rw [attrs_inj _ _ h.1, ident_inj _ _ h.2.1, opt_inj inheritance_inj h.2.2.1, body_inj interfaceMember_inj h.2.2.2]
  · rw [attrs_inj _ _ h.1, ident_inj _ _ h.2.1, body_inj mixinMember_inj h.2.2]
  · rw [attrs_inj _ _ h.1, ident_inj _ _ h.2.1, body_inj namespaceMember_inj h.2.2]
  · rw [attrs_inj _ _ h.1, ident_inj _ _ h.2.1, opt_inj inheritance_inj h.2.2.1, body_inj dictionaryMember_inj h.2.2.2]
  · rw [attrs_inj _ _ h.1, ident_inj _ _ h.2.1, body_inj interfaceMember_inj h.2.2]
  · rw [attrs_inj _ _ h.1, ident_inj _ _ h.2.1, body_inj mixinMember_inj h.2.2]
  · rw [attrs_inj _ _ h.1, ident_inj _ _ h.2.1, body_inj dictionaryMember_inj h.2.2]
  · rw [attrs_inj _ _ h.1, ident_inj _ _ h.2.1, body_inj namespaceMember_inj h.2.2]
  · rw [attrs_inj _ _ h.1, ident_inj _ _ h.2.1, list_inj string_inj (punctuatedNonEmpty_inj (brace_inj h.2.2))]
  · rw [attrs_inj _ _ h.1, attributedType_inj _ _ h.2.1, ident_inj _ _ h.2.2]
  · rw [attrs_inj _ _ h.1, ident_inj _ _ h.2.1, ident_inj _ _ h.2.2]
  · rw [attrs_inj _ _ h.1, ident_inj _ _ h.2.1, ident_inj _ _ h.2.2]

end Verif.Source
