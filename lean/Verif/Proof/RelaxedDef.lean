import Verif.Proof.RelaxedType

/-! # Accepted documents are derived in the grammar with additional alternatives: members and definitions -/

namespace Verif.WebIDL
open Nom Spec Spec.WebIDL

theorem args_le (args : List Argument) : Le (argumentList args) (D (.t c!"(") ⨾ D (.n .ArgumentList) ⨾ D (.t c!")")) :=
  Le.seq (tok_le _) (Le.seq (argumentList_le (arguments_le args)) (tok_le _))

theorem optArgs_le (args : Option (List Argument)) : Le (optArgumentList args) (D (.n .OptionalArgumentList)) := by
  cases args with
  | none =>
    exact eps_le
  | some args =>
    exact (args_le args).trans (std [.t c!"(", .n .ArgumentList, .t c!")"])

theorem constType_le (t : ConstType) : Le (constType t) (D (.n .ConstType)) := by
  have prim : ∀ {A : Lang} (q : Bool), Le A (D (.n .PrimitiveType)) → Le (A ⨾ optTok q c!"?") (D (.n .ConstType)) := by
    intro A q h
    cases q with
    | false =>
      exact ((seq_eps_le A).trans h).trans (std [.n .PrimitiveType])
    | true =>
      exact (Le.seq h (tok_le _)).trans (ext [.n .PrimitiveType, .t c!"?"])
  cases t with
  | integer t q =>
    exact prim q (integerType_le t)
  | floatingPoint t q =>
    exact prim q (floatingPointType_le t)
  | boolean q =>
    exact prim q ((tok_le _).trans (std [.t c!"boolean"]))
  | byte q =>
    exact prim q ((tok_le _).trans (std [.t c!"byte"]))
  | octet q =>
    exact prim q ((tok_le _).trans (std [.t c!"octet"]))
  | identifier i q =>
    cases q with
    | false =>
      exact ((seq_eps_le _).trans (typeName_le _ i)).trans (std [.identifier])
    | true =>
      exact (Le.seq (typeName_le _ i) (tok_le _)).trans (ext [.identifier, .t c!"?"])

theorem const_le (m : ConstMember) : Le (constMember m) (D (.n .ExtendedAttributeList) ⨾ D (.n .Const)) := by
  refine Le.seq (attributes_le _) ?_
  have := Le.seq (tok_le c!"const") (Le.seq (named_le' (constType_le m.constType) m.identifier) (Le.seq (tok_le c!"=")
    (Le.seq (constValue_le m.constValue) (tok_le c!";"))))
  rw [seq_assoc] at this
  exact this.trans (std [.t c!"const", .n .ConstType, .identifier, .t c!"=", .n .ConstValue, .t c!";"])

theorem attributeRest_le (t : AttributedType) (i : Str) :
    Le (tok c!"attribute" ⨾ namedAttributed t i ⨾ tok c!";") (D (.n .AttributeRest)) := by
  have := Le.seq (tok_le c!"attribute") (Le.seq ((namedAttributed_le t i).trans (Le.seq (Le.refl _)
    (std (N := .AttributeName) [.identifier]))) (tok_le c!";"))
  rw [seq_assoc] at this
  exact this.trans (std [.t c!"attribute", .n .TypeWithExtendedAttributes, .n .AttributeName, .t c!";"])

theorem readonly_le (b : Bool) : Le (optTok b c!"readonly") (D (.n .OptionalReadOnly)) := by
  cases b with
  | false =>
    exact eps_le
  | true =>
    exact (tok_le _).trans (std [.t c!"readonly"])

theorem operation_le (r : ReturnType) (o : Option Str) (args : List Argument) :
    Le (returnNamed r o ⨾ argumentList args ⨾ tok c!";") (D (.n .RegularOperation)) := by
  have key : Le (returnNamed r o) (D (.n .ReturnType) ⨾ D (.n .OptionalOperationName)) := by
    cases o with
    | none =>
      exact (returnType_le r).trans ((le_seq_eps _).trans (Le.seq (Le.refl _) eps_le))
    | some i =>
      exact (named_le' (returnType_le r) i).trans (Le.seq (Le.refl _)
        ((std (N := .OperationName) [.identifier]).trans (std [.n .OperationName])))
  have := Le.seq key (Le.seq (args_le args) (tok_le c!";"))
  simp only [seq_assoc] at this
  exact this.trans ((Le.seq (Le.refl _) (std (N := .OperationRest)
    [.n .OptionalOperationName, .t c!"(", .n .ArgumentList, .t c!")", .t c!";"])).trans (std [.n .ReturnType, .n .OperationRest]))

theorem specialised_le (s : Option Special) {A : Lang} (h : Le A (D (.n .RegularOperation))) :
    Le (specialised s A) (fun ls => D (.n .RegularOperation) ls ∨ D (.n .SpecialOperation) ls) := by
  have key : ∀ w, Le (tok w) (D (.n .Special)) → Le (tok w ⨾ A) (D (.n .SpecialOperation)) := fun w hw =>
    (Le.seq hw h).trans (std [.n .Special, .n .RegularOperation])
  cases s with
  | none =>
    exact fun ls hl => .inl (h ls hl.1)
  | some s =>
    cases s with
    | getter =>
      exact fun ls hl => .inr (key _ ((tok_le _).trans (std [.t c!"getter"])) ls hl)
    | setter =>
      exact fun ls hl => .inr (key _ ((tok_le _).trans (std [.t c!"setter"])) ls hl)
    | deleter =>
      exact fun ls hl => .inr (key _ ((tok_le _).trans (std [.t c!"deleter"])) ls hl)
    | legacyCaller =>
      exact fun ls hl => .inr (key _ ((tok_le _).trans (std [.t c!"legacycaller"])) ls hl)

theorem optionalType_none : D (.n .OptionalType) [] := (eps_le (N := .OptionalType)).of rfl

theorem le_with_eps {A B : Lang} {N : NonTerminal} (hN : [] ∈ productions N) (h : Le A B) : Le A (B ⨾ D (.n N)) :=
  h.trans ((le_seq_eps _).trans (Le.seq (Le.refl _) (eps_le hN)))

theorem types_single_le (t : AttributedType) :
    Le (attributedType t) (D (.n .TypeWithExtendedAttributes) ⨾ D (.n .OptionalType)) :=
  le_with_eps (by decide) (attributedType_le t)

theorem types_double_le (p : AttributedType × AttributedType) :
    Le (typePair p) (D (.n .TypeWithExtendedAttributes) ⨾ D (.n .OptionalType)) :=
  Le.seq (attributedType_le p.1) ((Le.seq (tok_le _) (attributedType_le p.2)).trans
    (std [.t c!",", .n .TypeWithExtendedAttributes]))

theorem iterable_le {A : Lang} (h : Le A (D (.n .TypeWithExtendedAttributes) ⨾ D (.n .OptionalType))) :
    Le (tok c!"iterable" ⨾ angles A ⨾ tok c!";") (D (.n .PartialInterfaceMember)) := by
  have := Le.seq (tok_le c!"iterable") (Le.seq (Le.seq (tok_le c!"<") (Le.seq h (tok_le c!">"))) (tok_le c!";"))
  simp only [seq_assoc] at this
  simp only [angles, seq_assoc]
  exact (this.trans (std [.t c!"iterable", .t c!"<", .n .TypeWithExtendedAttributes, .n .OptionalType, .t c!">", .t c!";"])).trans
    (std [.n .Iterable])

theorem asyncIterable_le {A : Lang} (h : Le A (D (.n .TypeWithExtendedAttributes) ⨾ D (.n .OptionalType)))
    (args : Option (List Argument)) :
    Le (tok c!"async" ⨾ tok c!"iterable" ⨾ angles A ⨾ optArgumentList args ⨾ tok c!";") (D (.n .PartialInterfaceMember)) := by
  have := Le.seq (tok_le c!"async") (Le.seq (tok_le c!"iterable") (Le.seq (Le.seq (tok_le c!"<") (Le.seq h (tok_le c!">")))
    (Le.seq (optArgs_le args) (tok_le c!";"))))
  simp only [seq_assoc] at this
  simp only [angles, seq_assoc]
  exact (this.trans (std [.t c!"async", .t c!"iterable", .t c!"<", .n .TypeWithExtendedAttributes, .n .OptionalType, .t c!">",
    .n .OptionalArgumentList, .t c!";"])).trans (std [.n .AsyncIterable])

theorem optReadonly_le {A : Lang} {X : NonTerminal} (b : Bool) (h1 : Le A (D (.n X))) (h2 : [.n X] ∈ productions .ReadOnlyMemberRest)
    (h3 : Le (D (.n X)) (D (.n .PartialInterfaceMember))) : Le (optTok b c!"readonly" ⨾ A) (D (.n .PartialInterfaceMember)) := by
  cases b with
  | false =>
    exact (eps_seq_le A).trans (h1.trans h3)
  | true =>
    exact ((Le.seq (tok_le _) (h1.trans (std _ h2))).trans (std [.t c!"readonly", .n .ReadOnlyMemberRest])).trans
      (std [.n .ReadOnlyMember])

theorem maplike_le (p : AttributedType × AttributedType) :
    Le (tok c!"maplike" ⨾ angles (typePair p) ⨾ tok c!";") (D (.n .MaplikeRest)) := by
  have := Le.seq (tok_le c!"maplike") (Le.seq (Le.seq (tok_le c!"<") (Le.seq (Le.seq (attributedType_le p.1) (Le.seq (tok_le c!",")
    (attributedType_le p.2))) (tok_le c!">"))) (tok_le c!";"))
  simp only [seq_assoc] at this
  simp only [angles, typePair, comma, seq_assoc]
  exact this.trans (std [.t c!"maplike", .t c!"<", .n .TypeWithExtendedAttributes, .t c!",", .n .TypeWithExtendedAttributes,
    .t c!">", .t c!";"])

theorem setlike_le (t : AttributedType) :
    Le (tok c!"setlike" ⨾ angles (attributedType t) ⨾ tok c!";") (D (.n .SetlikeRest)) := by
  simp only [angles, seq_assoc]
  exact (Le.seq (tok_le c!"setlike") (Le.seq (tok_le c!"<") (Le.seq (attributedType_le t) (Le.seq (tok_le c!">")
    (tok_le c!";"))))).trans (std [.t c!"setlike", .t c!"<", .n .TypeWithExtendedAttributes, .t c!">", .t c!";"])

theorem interfaceMember_le (m : InterfaceMember) :
    Le (interfaceMember m) (D (.n .ExtendedAttributeList) ⨾ D (.n .PartialInterfaceMember)) := by
  cases m with
  | const m =>
    exact (const_le m).trans (Le.seq (Le.refl _) (std [.n .Const]))
  | «attribute» m =>
    refine Le.seq (attributes_le _) ?_
    have key := attributeRest_le m.type_ m.identifier
    cases m.modifier with
    | none =>
      exact (eps_seq_le _).trans (optReadonly_le _ key (by decide)
        ((std (N := .ReadWriteAttribute) [.n .AttributeRest]).trans (std [.n .ReadWriteAttribute])))
    | some x =>
      cases x with
      | stringifier =>
        exact ((Le.seq (tok_le _) ((Le.seq (readonly_le m.readonly) key).trans
          (std [.n .OptionalReadOnly, .n .AttributeRest]))).trans (std [.t c!"stringifier", .n .StringifierRest])).trans
          (std [.n .Stringifier])
      | static =>
        exact ((Le.seq (tok_le _) ((Le.seq (readonly_le m.readonly) key).trans
          (std [.n .OptionalReadOnly, .n .AttributeRest]))).trans (std [.t c!"static", .n .StaticMemberRest])).trans
          (std [.n .StaticMember])
      | inherit =>
        refine Le.trans ?_ (std [.n .InheritAttribute])
        cases m.readonly with
        | false =>
          exact (Le.seq (tok_le _) ((eps_seq_le _).trans key)).trans (std [.t c!"inherit", .n .AttributeRest])
        | true =>
          exact (Le.seq (tok_le _) (Le.seq (tok_le _) key)).trans
            (ext [.t c!"inherit", .t c!"readonly", .n .AttributeRest])
  | constructor m =>
    refine Le.seq (attributes_le _) ?_
    have := Le.seq (tok_le c!"constructor") (Le.seq (args_le m.args) (tok_le c!";"))
    simp only [seq_assoc] at this
    exact (this.trans (std [.t c!"constructor", .t c!"(", .n .ArgumentList, .t c!")", .t c!";"])).trans (ext [.n .Constructor])
  | operation m =>
    refine Le.seq (attributes_le _) ((avoiding_le _ _).trans ?_)
    have key := specialised_le m.special (operation_le m.returnType m.identifier m.args)
    unfold modified
    split
    · intro ls h
      rcases key ls h.1 with h | h
      · exact ((std (N := .Operation) [.n .RegularOperation]).trans (std [.n .Operation])).of h
      · exact ((std (N := .Operation) [.n .SpecialOperation]).trans (std [.n .Operation])).of h
    · rintro _ ⟨a, b, rfl, ha, hb⟩
      rcases key b hb with h | h
      · exact ((Le.seq (tok_le c!"stringifier") (std [.n .RegularOperation])).trans
          ((std [.t c!"stringifier", .n .StringifierRest]).trans (std [.n .Stringifier]))).of ⟨a, b, rfl, ha, h⟩
      · exact ((Le.seq (tok_le c!"stringifier") (Le.refl _)).trans
          (ext [.t c!"stringifier", .n .SpecialOperation])).of ⟨a, b, rfl, ha, h⟩
    · rintro _ ⟨a, b, rfl, ha, hb⟩
      rcases key b hb with h | h
      · exact ((Le.seq (tok_le c!"static") (std [.n .RegularOperation])).trans
          ((std [.t c!"static", .n .StaticMemberRest]).trans (std [.n .StaticMember]))).of ⟨a, b, rfl, ha, h⟩
      · exact ((Le.seq (tok_le c!"static") (Le.refl _)).trans
          (ext [.t c!"static", .n .SpecialOperation])).of ⟨a, b, rfl, ha, h⟩
  | iterable m =>
    cases m with
    | single as t =>
      exact Le.seq (attributes_le _) (iterable_le (types_single_le t))
    | double as p =>
      exact Le.seq (attributes_le _) (iterable_le (types_double_le p))
  | asyncIterable m =>
    cases m with
    | single as t args =>
      exact Le.seq (attributes_le _) (asyncIterable_le (types_single_le t) args)
    | double as p args =>
      exact Le.seq (attributes_le _) (asyncIterable_le (types_double_le p) args)
  | maplike m =>
    exact Le.seq (attributes_le _) (optReadonly_le _ (maplike_le _) (by decide)
      ((std (N := .ReadWriteMaplike) [.n .MaplikeRest]).trans (std [.n .ReadWriteMaplike])))
  | setlike m =>
    exact Le.seq (attributes_le _) (optReadonly_le _ (setlike_le _) (by decide)
      ((std (N := .ReadWriteSetlike) [.n .SetlikeRest]).trans (std [.n .ReadWriteSetlike])))
  | stringifier m =>
    exact Le.seq (attributes_le _) (((Le.seq (tok_le _) ((tok_le _).trans
      (std (N := .StringifierRest) [.t c!";"]))).trans (std [.t c!"stringifier", .n .StringifierRest])).trans (std [.n .Stringifier]))

theorem mixinMember_le (m : MixinMember) : Le (mixinMember m) (D (.n .ExtendedAttributeList) ⨾ D (.n .MixinMember)) := by
  cases m with
  | const m =>
    exact (const_le m).trans (Le.seq (Le.refl _) (std [.n .Const]))
  | operation m =>
    refine Le.seq (attributes_le _) ?_
    have key := operation_le m.returnType m.identifier m.args
    unfold optWord
    split
    · exact ((Le.seq (tok_le _) (key.trans (std [.n .RegularOperation]))).trans (std [.t c!"stringifier", .n .StringifierRest])).trans
        (std [.n .Stringifier])
    · exact ((avoiding_le _ _).trans key).trans (std [.n .RegularOperation])
  | «attribute» m =>
    refine Le.seq (attributes_le _) ?_
    have key := Le.seq (readonly_le m.readonly) (attributeRest_le m.type_ m.identifier)
    cases m.stringifier with
    | false =>
      exact ((eps_seq_le _).trans key).trans (std [.n .OptionalReadOnly, .n .AttributeRest])
    | true =>
      exact ((Le.seq (tok_le _) (key.trans
          (std [.n .OptionalReadOnly, .n .AttributeRest]))).trans (std [.t c!"stringifier", .n .StringifierRest])).trans
          (std [.n .Stringifier])
  | stringifier m =>
    exact Le.seq (attributes_le _) (((Le.seq (tok_le _) ((tok_le _).trans
      (std (N := .StringifierRest) [.t c!";"]))).trans (std [.t c!"stringifier", .n .StringifierRest])).trans (std [.n .Stringifier]))

theorem namespaceMember_le (m : NamespaceMember) :
    Le (namespaceMember m) (D (.n .ExtendedAttributeList) ⨾ D (.n .NamespaceMember)) := by
  cases m with
  | const m =>
    exact (const_le m).trans (Le.seq (Le.refl _) (std [.n .Const]))
  | operation m =>
    exact Le.seq (attributes_le _) ((operation_le m.returnType m.identifier m.args).trans (std [.n .RegularOperation]))
  | «attribute» m =>
    exact Le.seq (attributes_le _) ((Le.seq (tok_le _) (attributeRest_le m.type_ m.identifier)).trans
      (std [.t c!"readonly", .n .AttributeRest]))

theorem dictionaryMember_le (m : DictionaryMember) : Le (dictionaryMember m) (D (.n .DictionaryMember)) := by
  refine Le.trans (Le.seq (attributes_le _) ?_) (std [.n .ExtendedAttributeList, .n .DictionaryMemberRest])
  unfold optWord
  have h1 := named_le' (type_le m.type_) m.identifier
  have h2 := named_le' ((type_le m.type_).trans (std (N := .Required) [.n .Type_])) m.identifier
  split
  · cases m.default with
    | none =>
      have := Le.seq (tok_le c!"required") (Le.seq h2 ((eps_seq_le _).trans (tok_le c!";")))
      rw [seq_assoc] at this
      exact this.trans (std [.t c!"required", .n .Required, .identifier, .t c!";"])
    | some v =>
      have := Le.seq (tok_le c!"required") (Le.seq h2 (Le.seq (Le.seq (tok_le c!"=") (defaultValue_le v)) (tok_le c!";")))
      simp only [seq_assoc] at this
      simp only [Spec.default, seq_assoc]
      exact this.trans (ext [.t c!"required", .n .Required, .identifier, .t c!"=", .n .DefaultValue, .t c!";"])
  · refine (avoiding_le _ _).trans ?_
    have := Le.seq h1 (Le.seq (default_le m.default) (tok_le c!";"))
    rw [seq_assoc] at this
    exact this.trans (std [.n .Type_, .identifier, .n .Default, .t c!";"])

/-! ## Definitions -/

theorem inheritance_le (o : Option Str) : Le (inheritance o) (D (.n .Inheritance)) := by
  cases o with
  | none =>
    exact eps_le
  | some i =>
    exact (Le.seq (tok_le _) (name_le i)).trans (std [.t c!":", .identifier])

theorem members_le {α : Type} {L : α → Lang} {X Xs : NonTerminal} (h : ∀ m, Le (L m) (D (.n .ExtendedAttributeList) ⨾ D (.n X)))
    (h1 : [.n .ExtendedAttributeList, .n X, .n Xs] ∈ productions Xs) (h2 : [] ∈ productions Xs) (ms : List α) :
    Le (concat (ms.map L)) (D (.n Xs)) := by
  refine concat_le (X := X) (A := D (.n .ExtendedAttributeList) ⨾ D (.n X)) ?_ h2 _ fun B hB => ?_
  · rw [seq_assoc]
    exact std _ h1
  · obtain ⟨m, -, rfl⟩ := List.mem_map.1 hB
    exact h m

theorem body_le {α : Type} {L : α → Lang} {Xs : NonTerminal} {ms : List α} (h : Le (concat (ms.map L)) (D (.n Xs))) :
    Le (body L ms) (D (.t c!"{") ⨾ D (.n Xs) ⨾ D (.t c!"}") ⨾ D (.t c!";")) := by
  simp only [body, braces, seq_assoc]
  exact Le.seq (tok_le _) (Le.seq h (Le.seq (tok_le _) (tok_le _)))

theorem interfaceMembers_le (ms : List InterfaceMember) : Le (concat (ms.map interfaceMember)) (D (.n .InterfaceMembers)) :=
  members_le (fun m => (interfaceMember_le m).trans (Le.seq (Le.refl _) (std (N := .InterfaceMember) [.n .PartialInterfaceMember])))
    (by decide) (by decide) ms

theorem partialInterfaceMembers_le (ms : List InterfaceMember) :
    Le (concat (ms.map interfaceMember)) (D (.n .PartialInterfaceMembers)) :=
  members_le interfaceMember_le (by decide) (by decide) ms

theorem dictionaryMembers_le (ms : List DictionaryMember) :
    Le (concat (ms.map dictionaryMember)) (D (.n .DictionaryMembers)) := by
  refine concat_le (X := .DictionaryMember) (A := D (.n .DictionaryMember)) (std [.n .DictionaryMember, .n .DictionaryMembers])
    (by decide) _ fun B hB => ?_
  obtain ⟨m, -, rfl⟩ := List.mem_map.1 hB
  exact dictionaryMember_le m

theorem mixinRest_le (i : Str) (ms : List MixinMember) :
    Le (tok c!"mixin" ⨾ name i ⨾ body mixinMember ms) (D (.n .MixinRest)) :=
  (Le.seq (tok_le _) (Le.seq (name_le i) (body_le (members_le mixinMember_le (Xs := .MixinMembers) (by decide) (by decide) ms)))).trans
    (std [.t c!"mixin", .identifier, .t c!"{", .n .MixinMembers, .t c!"}", .t c!";"])

theorem interfaceRest_le (i : Str) (inh : Option Str) (ms : List InterfaceMember) :
    Le (name i ⨾ inheritance inh ⨾ body interfaceMember ms) (D (.n .InterfaceRest)) :=
  (Le.seq (name_le i) (Le.seq (inheritance_le inh) (body_le (interfaceMembers_le ms)))).trans
    (std [.identifier, .n .Inheritance, .t c!"{", .n .InterfaceMembers, .t c!"}", .t c!";"])

theorem namespace_le (i : Str) (ms : List NamespaceMember) :
    Le (tok c!"namespace" ⨾ name i ⨾ body namespaceMember ms) (D (.n .Namespace)) :=
  (Le.seq (tok_le _) (Le.seq (name_le i) (body_le (members_le namespaceMember_le (Xs := .NamespaceMembers) (by decide) (by decide) ms)))).trans
    (std [.t c!"namespace", .identifier, .t c!"{", .n .NamespaceMembers, .t c!"}", .t c!";"])

theorem enumTail_le (c : Bool) (v : Str) (vs : List Str) :
    Le (sepBy comma ((v :: vs).map string) ⨾ optTok c c!",") (D (.n .EnumValueList)) := by
  induction vs generalizing v with
  | nil =>
    cases c with
    | false =>
      exact (Le.seq (string_le v) (eps_le (N := .EnumValueListComma))).trans (std [.string, .n .EnumValueListComma])
    | true =>
      have : Le (tok c!",") (D (.t c!",") ⨾ D (.n .EnumValueListString)) := le_with_eps (by decide) (tok_le _)
      exact (Le.seq (string_le v) (this.trans (std (N := .EnumValueListComma) [.t c!",", .n .EnumValueListString]))).trans
        (std [.string, .n .EnumValueListComma])
  | cons w vs ih =>
    simp only [List.map_cons, sepBy, seq_assoc]
    simp only [List.map_cons] at ih
    intro ls h
    obtain ⟨a, _, rfl, ha, b, r, rfl, hb, hr⟩ := h
    have := D_inv (ih w _ hr)
    cases this with
    | mk h hs =>
      have e : loose.productions .EnumValueList = [[.string, .n .EnumValueListComma]] := by decide
      rw [e] at h
      obtain rfl := List.mem_singleton.1 h
      have hr' : D (.n .EnumValueListString) r := D_n (.mk (List.mem_append_left _ (by decide)) hs)
      refine (std [.string, .n .EnumValueListComma]).of ⟨a, _, rfl, string_le v _ ha, ?_⟩
      exact (std [.t c!",", .n .EnumValueListString]).of ⟨b, r, rfl, tok_le _ _ hb, hr'⟩

theorem enumValues_le (vs : List Str) : Le (enumValues vs) (D (.n .EnumValueList)) := by
  rintro ls ⟨h, c, hl⟩
  cases vs with
  | nil =>
    exact absurd rfl h
  | cons v vs =>
    exact enumTail_le c v vs ls hl

theorem partial_le {A : Lang} (h : Le A (D (.n .PartialDefinition))) : Le (tok c!"partial" ⨾ A) (D (.n .Definition)) :=
  ((Le.seq (tok_le _) h).trans (std [.t c!"partial", .n .PartialDefinition])).trans (std [.n .Partial])

theorem callback_le {A : Lang} (h : Le A (D (.n .CallbackRestOrInterface))) : Le (tok c!"callback" ⨾ A) (D (.n .Definition)) :=
  ((Le.seq (tok_le _) h).trans (std [.t c!"callback", .n .CallbackRestOrInterface])).trans (std [.n .CallbackOrInterfaceOrMixin])

theorem interface_le {A : Lang} (h : Le A (D (.n .InterfaceOrMixin))) : Le (tok c!"interface" ⨾ A) (D (.n .Definition)) :=
  ((Le.seq (tok_le _) h).trans (std [.t c!"interface", .n .InterfaceOrMixin])).trans (std [.n .CallbackOrInterfaceOrMixin])

theorem definition_le (d : Definition) : Le (definition d) (D (.n .ExtendedAttributeList) ⨾ D (.n .Definition)) := by
  cases d with
  | callback as i r args =>
    refine Le.seq (attributes_le _) (callback_le ?_)
    have := Le.seq (name_le i) (Le.seq (tok_le c!"=") (Le.seq (returnType_le r) (Le.seq (args_le args) (tok_le c!";"))))
    simp only [seq_assoc] at this
    exact (this.trans (std [.identifier, .t c!"=", .n .ReturnType, .t c!"(", .n .ArgumentList, .t c!")", .t c!";"])).trans
      (std [.n .CallbackRest])
  | callbackInterface as i inh ms =>
    exact Le.seq (attributes_le _) (callback_le
      ((Le.seq (tok_le _) (interfaceRest_le i inh ms)).trans (ext [.t c!"interface", .n .InterfaceRest])))
  | interface as i inh ms =>
    exact Le.seq (attributes_le _) (interface_le ((interfaceRest_le i inh ms).trans (std [.n .InterfaceRest])))
  | interfaceMixin as i ms =>
    exact Le.seq (attributes_le _) (interface_le ((mixinRest_le i ms).trans (std [.n .MixinRest])))
  | «namespace» as i ms =>
    exact Le.seq (attributes_le _) ((namespace_le i ms).trans (std [.n .Namespace]))
  | dictionary as i inh ms =>
    exact Le.seq (attributes_le _) (((Le.seq (tok_le _) (Le.seq (name_le i) (Le.seq (inheritance_le inh)
      (body_le (dictionaryMembers_le ms))))).trans
      (std [.t c!"dictionary", .identifier, .n .Inheritance, .t c!"{", .n .DictionaryMembers, .t c!"}", .t c!";"])).trans
      (std [.n .Dictionary]))
  | partialInterface as i ms =>
    exact Le.seq (attributes_le _) (partial_le ((Le.seq (tok_le _) (((Le.seq (name_le i)
      (body_le (partialInterfaceMembers_le ms))).trans
      (std [.identifier, .t c!"{", .n .PartialInterfaceMembers, .t c!"}", .t c!";"])).trans
      (std (N := .PartialInterfaceOrPartialMixin) [.n .PartialInterfaceRest]))).trans
      (std [.t c!"interface", .n .PartialInterfaceOrPartialMixin])))
  | partialInterfaceMixin as i ms =>
    exact Le.seq (attributes_le _) (partial_le ((Le.seq (tok_le _)
      ((mixinRest_le i ms).trans (std (N := .PartialInterfaceOrPartialMixin) [.n .MixinRest]))).trans
      (std [.t c!"interface", .n .PartialInterfaceOrPartialMixin])))
  | partialDictionary as i ms =>
    exact Le.seq (attributes_le _) (partial_le (((Le.seq (tok_le _) (Le.seq (name_le i)
      (body_le (dictionaryMembers_le ms)))).trans
      (std [.t c!"dictionary", .identifier, .t c!"{", .n .DictionaryMembers, .t c!"}", .t c!";"])).trans
      (std [.n .PartialDictionary])))
  | partialNamespace as i ms =>
    exact Le.seq (attributes_le _) (partial_le ((namespace_le i ms).trans (std [.n .Namespace])))
  | enum as i vs =>
    refine Le.seq (attributes_le _) ?_
    simp only [braces, seq_assoc]
    exact ((Le.seq (tok_le _) (Le.seq (name_le i) (Le.seq (tok_le _) (Le.seq (enumValues_le vs) (Le.seq (tok_le _) (tok_le _)))))).trans
      (std [.t c!"enum", .identifier, .t c!"{", .n .EnumValueList, .t c!"}", .t c!";"])).trans (std [.n .Enum])
  | typedef as t i =>
    refine Le.seq (attributes_le _) ?_
    have := Le.seq (tok_le c!"typedef") (Le.seq (namedAttributed_le t i) (tok_le c!";"))
    rw [seq_assoc] at this
    exact (this.trans (std [.t c!"typedef", .n .TypeWithExtendedAttributes, .identifier, .t c!";"])).trans (std [.n .Typedef])
  | includesStatement as l r =>
    exact Le.seq (attributes_le _) (((Le.seq ((avoiding_le _ _).trans (name_le l)) (Le.seq (tok_le _)
      (Le.seq (name_le r) (tok_le _)))).trans (std [.identifier, .t c!"includes", .identifier, .t c!";"])).trans
      (std [.n .IncludesStatement]))
  | implements as l r =>
    exact Le.seq (attributes_le _) (((Le.seq ((avoiding_le _ _).trans (name_le l)) (Le.seq (tok_le _)
      (Le.seq (name_le r) (tok_le _)))).trans (ext [.identifier, .t c!"implements", .identifier, .t c!";"])).trans
      (std [.n .IncludesStatement]))

/-- The spellings of definitions are derived in the loose grammar. -/
theorem definitions_loose {ds : List Definition} {ls : List Str} (h : definitions ds ls) : DerivesIn loose .Definitions ls :=
  D_inv (members_le definition_le (by decide) (by decide) ds ls h)

end Verif.WebIDL
