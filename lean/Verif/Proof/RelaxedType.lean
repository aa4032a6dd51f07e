import Verif.Proof.Relaxed

/-! # Accepted documents are derived in the grammar with additional alternatives: types -/

namespace Verif.WebIDL
open Nom Spec Spec.WebIDL

theorem nonAny_le {ls : List Str} (h : NonAny ls) : D (.n .DistinguishableType) ls ∨ D (.n .PromiseType) ls := by
  rcases h with ⟨h, -⟩ | ⟨K, hK, h⟩
  · exact .inl ((std [.n .StringType, .n .Null]).of h)
  · rcases List.mem_append.1 hK with hK | hK
    · exact .inl ((std K (List.mem_of_mem_erase hK)).of h)
    · obtain rfl := List.mem_singleton.1 hK
      exact .inr h

theorem nonAny_single : Le NonAny (D (.n .SingleType)) := fun _ h =>
  (nonAny_le h).elim (std [.n .DistinguishableType]).of (std [.n .PromiseType]).of

theorem cat_append {As Bs : List Lang} {a b : List Str} (ha : cat As a) (hb : cat Bs b) : cat (As ++ Bs) (a ++ b) := by
  induction As generalizing a with
  | nil =>
    have ha : a = [] := ha
    subst ha
    exact hb
  | cons A As ih =>
    cases As with
    | nil => exact cat_cons ha hb
    | cons B As =>
      obtain ⟨a, c, rfl, ha, hc⟩ := ha
      rw [List.append_assoc]
      exact cat_cons ha (ih hc)

theorem union_le : ∀ {Ms : List Lang}, (∀ B ∈ Ms, Le B (D (.n .UnionMemberType))) →
    Le (parens (sepBy (tok c!"or") Ms)) (D (.n .UnionType))
  | [], _ => by
    rintro _ ⟨a, _, rfl, ha, _, b, rfl, rfl, hb⟩
    exact (ext [.t c!"(", .t c!")"]).of ⟨a, b, rfl, tok_le _ _ ha, tok_le _ _ hb⟩
  | [A], h => (Le.seq (tok_le _) (Le.seq (h A (by simp)) (tok_le _))).trans
      (ext [.t c!"(", .n .UnionMemberType, .t c!")"])
  | A :: B :: Ms, h => by
    refine Le.trans (B := tok c!"(" ⨾ A ⨾ tok c!"or" ⨾ (D (.n .UnionMemberType) ⨾ D (.n .UnionMemberTypes)) ⨾ tok c!")") ?_ ?_
    · have := Le.seq (Le.refl (tok c!"(")) (Le.seq (Le.seq (Le.refl A) (Le.seq (Le.refl (tok c!"or"))
        (sepBy_le (sep := c!"or") (X := .UnionMemberType) (Xs := .UnionMemberTypes) (by decide) (by decide) B Ms
          fun C hC => h C (List.mem_cons_of_mem _ hC)))) (Le.refl (tok c!")")))
      simp only [seq_assoc] at this ⊢
      unfold parens
      rw [sepBy]
      simp only [seq_assoc]
      exact this
    · simp only [seq_assoc]
      exact (Le.seq (tok_le _) (Le.seq (h A (by simp)) (Le.seq (tok_le _) (Le.seq (Le.refl _) (Le.seq (Le.refl _)
        (tok_le _)))))).trans (std [.t c!"(", .n .UnionMemberType, .t c!"or", .n .UnionMemberType, .n .UnionMemberTypes, .t c!")"])

theorem argumentList_le : ∀ {As : List Lang}, (∀ B ∈ As, Le B (D (.n .Argument))) → Le (sepBy comma As) (D (.n .ArgumentList))
  | [], _ => eps_le
  | A :: As, h => (sepBy_le (by decide) (by decide) A As h).trans (std [.n .Argument, .n .Arguments])

theorem attributeList_le : ∀ {As : List Lang}, (∀ B ∈ As, Le B (D (.n .ExtendedAttribute))) →
    Le (brackets (sepBy comma As)) (D (.n .ExtendedAttributeList))
  | [], _ => by
    rintro _ ⟨a, _, rfl, ha, _, b, rfl, rfl, hb⟩
    exact (ext [.t c!"[", .t c!"]"]).of ⟨a, b, rfl, tok_le _ _ ha, tok_le _ _ hb⟩
  | A :: As, h => by
    have := Le.seq (tok_le c!"[") (Le.seq (sepBy_le (sep := c!",") (Xs := .ExtendedAttributes) (by decide) (by decide) A As h)
      (tok_le c!"]"))
    simp only [seq_assoc] at this
    exact this.trans (std [.t c!"[", .n .ExtendedAttribute, .n .ExtendedAttributes, .t c!"]"])

theorem identifiers_le (i : Str) (is : List Str) :
    Le (sepBy comma ((i :: is).map name)) (D .identifier ⨾ D (.n .Identifiers)) := by
  induction is generalizing i with
  | nil => exact fun ls hl => ⟨ls, [], by simp, name_le i _ hl, (eps_le (N := .Identifiers)).of rfl⟩
  | cons j is ih =>
    exact Le.trans (Le.seq (name_le i) (Le.seq (tok_le c!",") (ih j)))
      (Le.seq (Le.refl _) (std [.t c!",", .identifier, .n .Identifiers]))

theorem identList_le (i : Str) : ∀ is : List Str, Le (name i ⨾ tok c!"=" ⨾ parens (sepBy comma (is.map name)))
    (D (.n .ExtendedAttributeIdentList))
  | [] => by
    refine Le.trans (Le.seq (name_le i) (Le.seq (tok_le _) ?_)) (ext [.identifier, .t c!"=", .t c!"(", .t c!")"])
    rintro _ ⟨a, _, rfl, ha, _, b, rfl, rfl, hb⟩
    exact ⟨a, b, rfl, tok_le _ _ ha, tok_le _ _ hb⟩
  | j :: is => (Le.seq (name_le i) (Le.seq (tok_le _) (Le.seq (tok_le _) (Le.seq ((identifiers_le j is).trans
      (std (N := .IdentifierList) [.identifier, .n .Identifiers])) (tok_le _))))).trans
      (std [.identifier, .t c!"=", .t c!"(", .n .IdentifierList, .t c!")"])

theorem argumentName_le : Le (D .identifier) (D (.n .ArgumentName)) := std [.identifier]

/-- A type followed by a name. -/
theorem named_le' {T T' : Lang} (h : Le T T') (i : Str) : Le (named T i) (T' ⨾ D .identifier) :=
  (named_le T i).trans (Le.seq h (Le.refl _))

mutual

theorem type_le : ∀ t : Ty, Le (type t) (D (.n .Type_))
  | .single t => by
    rw [type]
    exact (singleType_le t).trans (std [.n .SingleType])
  | .union ms q => by
    rw [type]
    exact (Le.seq (union_le (unionMembers_le ms)) (null_le q)).trans (std [.n .UnionType, .n .Null])

theorem singleType_le : ∀ t : SingleType, Le (singleType t) (D (.n .SingleType))
  | .any => by
    rw [singleType]
    exact (tok_le _).trans (std [.t c!"any"])
  | .nonAny t => by
    rw [singleType]
    exact ((avoiding_le _ _).trans (nonAnyType_le t)).trans nonAny_single

theorem nonAnyType_le : ∀ t : NonAnyType, Le (nonAnyType t) NonAny
  | .promise r => by
    rw [nonAnyType]
    exact ((Le.seq (tok_le _) (Le.seq (tok_le _) (Le.seq (returnType_le r) (tok_le _)))).trans
      (std [.t c!"Promise", .t c!"<", .n .ReturnType, .t c!">"])).trans (key [.n .PromiseType])
  | .integer t q => by
    rw [nonAnyType]
    exact dist_primitive (integerType_le t) q
  | .floatingPoint t q => by
    rw [nonAnyType]
    exact dist_primitive (floatingPointType_le t) q
  | .builtin b q => by
    rw [nonAnyType]
    exact builtin_le b q
  | .sequence t q => by
    rw [nonAnyType]
    simp only [angles, seq_assoc]
    exact (Le.seq (tok_le _) (Le.seq (tok_le _) (Le.seq ((type_le t).trans (std (N := .Generic) [.n .Type_]))
      (Le.seq (tok_le _) (null_le q))))).trans (key [.t c!"sequence", .t c!"<", .n .Generic, .t c!">", .n .Null])
  | .frozenArray t q => by
    rw [nonAnyType]
    simp only [angles, seq_assoc]
    exact (Le.seq (tok_le _) (Le.seq (tok_le _) (Le.seq ((type_le t).trans (std (N := .Generic) [.n .Type_]))
      (Le.seq (tok_le _) (null_le q))))).trans (key [.t c!"FrozenArray", .t c!"<", .n .Generic, .t c!">", .n .Null])
  | .record k v q => by
    rw [nonAnyType]
    refine (Le.seq ?_ (null_le q)).trans (key [.n .RecordType, .n .Null])
    have hv := Le.seq (tok_le c!",") (Le.seq ((type_le v).trans (std (N := .Generic) [.n .Type_])) (tok_le c!">"))
    simp only [angles, comma, seq_assoc]
    rintro _ ⟨a, _, rfl, ha, b, _, rfl, hb, c, d, rfl, hc, hd⟩
    have hd := hv d hd
    have ha := tok_le _ _ ha
    have hb := tok_le _ _ hb
    rcases recordKeyType_le k c hc with hc | ⟨K, hK, hc⟩
    · exact (std [.t c!"record", .t c!"<", .n .StringType, .t c!",", .n .Generic, .t c!">"]).of
        ⟨a, _, rfl, ha, b, _, rfl, hb, c, d, rfl, hc, hd⟩
    · refine (ext ([.t c!"record", .t c!"<"] ++ K ++ [.t c!",", .n .Generic, .t c!">"])
        (List.mem_append_right _ (List.mem_map.2 ⟨K, hK, rfl⟩))).of ?_
      have h1 : cat ([.t c!"record", .t c!"<"].map D) (a ++ b) := ⟨a, b, rfl, ha, hb⟩
      have h2 : cat ([.t c!",", .n .Generic, .t c!">"].map D) d := hd
      have := cat_append (cat_append h1 hc) h2
      rw [← List.map_append, ← List.map_append] at this
      simpa using this
  | .identifier i q => by
    rw [nonAnyType]
    exact dist_identifier (typeName_le _ i) q

theorem recordKeyType_le : ∀ k : RecordKeyType, Le (recordKeyType k) (fun ls => D (.n .StringType) ls ∨ Key ls)
  | .byte => by
    rw [recordKeyType]
    exact fun ls h => .inl (((tok_le _).trans (std [.t c!"ByteString"])) ls h)
  | .dom => by
    rw [recordKeyType]
    exact fun ls h => .inl (((tok_le _).trans (std [.t c!"DOMString"])) ls h)
  | .usv => by
    rw [recordKeyType]
    exact fun ls h => .inl (((tok_le _).trans (std [.t c!"USVString"])) ls h)
  | .nonAny t => by
    rw [recordKeyType]
    intro ls h
    rcases nonAnyType_le t ls h.1 with ⟨-, w, hw, hp⟩ | hk
    · refine absurd hp (h.2 [w] ?_)
      simpa using hw
    · exact .inr hk

theorem unionMember_le : ∀ m : UnionMember, Le (unionMember m) (D (.n .UnionMemberType))
  | .single as t => by
    rw [unionMember]
    rintro _ ⟨a, b, rfl, ha, hb⟩
    have ha := attributes_le as a ha
    rcases nonAny_le (nonAnyType_le t b hb) with hb | hb
    · exact (std [.n .ExtendedAttributeList, .n .DistinguishableType]).of ⟨a, b, rfl, ha, hb⟩
    · exact (ext [.n .ExtendedAttributeList, .n .PromiseType]).of ⟨a, b, rfl, ha, hb⟩
  | .union ms q => by
    rw [unionMember]
    exact (Le.seq (union_le (unionMembers_le ms)) (null_le q)).trans (std [.n .UnionType, .n .Null])

theorem unionMembers_le : ∀ ms : List UnionMember, ∀ B ∈ unionMembers ms, Le B (D (.n .UnionMemberType))
  | [], B, h => by simp [unionMembers] at h
  | m :: ms, B, h => by
    rw [unionMembers] at h
    rcases List.mem_cons.1 h with rfl | h
    · exact unionMember_le m
    · exact unionMembers_le ms B h

theorem returnType_le : ∀ r : ReturnType, Le (returnType r) (D (.n .ReturnType))
  | .undefined => by
    rw [returnType]
    exact (tok_le _).trans (std [.t c!"undefined"])
  | .type t => by
    rw [returnType]
    exact ((avoiding_le _ _).trans (type_le t)).trans (std [.n .Type_])

theorem extAttr_le : ∀ a : ExtAttr, Le (extAttr a) (D (.n .ExtendedAttribute))
  | .argList i args => by
    rw [extAttr]
    exact ((Le.seq (name_le i) (Le.seq (tok_le _) (Le.seq (argumentList_le (arguments_le args)) (tok_le _)))).trans
      (std [.identifier, .t c!"(", .n .ArgumentList, .t c!")"])).trans (std [.n .ExtendedAttributeArgList])
  | .namedArgList l r args => by
    rw [extAttr]
    exact ((Le.seq (name_le l) (Le.seq (tok_le _) (Le.seq (name_le r) (Le.seq (tok_le _)
      (Le.seq (argumentList_le (arguments_le args)) (tok_le _)))))).trans
      (std [.identifier, .t c!"=", .identifier, .t c!"(", .n .ArgumentList, .t c!")"])).trans
      (std [.n .ExtendedAttributeNamedArgList])
  | .identList i is => by
    rw [extAttr]
    exact (identList_le i is).trans (std [.n .ExtendedAttributeIdentList])
  | .ident l r => by
    rw [extAttr]
    cases r with
    | identifier r => exact ((Le.seq (name_le l) (Le.seq (tok_le _) (name_le r))).trans
        (std [.identifier, .t c!"=", .identifier])).trans (std [.n .ExtendedAttributeIdent])
    | string v => exact ((Le.seq (name_le l) (Le.seq (tok_le _) (string_le v))).trans
        (std [.identifier, .t c!"=", .string])).trans (std [.n .ExtendedAttributeString])
  | .wildcard l => by
    rw [extAttr]
    exact ((Le.seq (name_le l) (Le.seq (tok_le _) (tok_le _))).trans
      (std [.identifier, .t c!"=", .t c!"*"])).trans (std [.n .ExtendedAttributeWildcard])
  | .noArgs i => by
    rw [extAttr]
    exact ((name_le i).trans (std [.identifier])).trans (std [.n .ExtendedAttributeNoArgs])

theorem extAttrs_le : ∀ as : List ExtAttr, ∀ B ∈ extAttrs as, Le B (D (.n .ExtendedAttribute))
  | [], B, h => by simp [extAttrs] at h
  | a :: as, B, h => by
    rw [extAttrs] at h
    rcases List.mem_cons.1 h with rfl | h
    · exact extAttr_le a
    · exact extAttrs_le as B h

theorem attributes_le : ∀ as : Option (List ExtAttr), Le (attributes as) (D (.n .ExtendedAttributeList))
  | none => by
    rw [attributes]
    exact eps_le
  | some as => by
    rw [attributes]
    exact attributeList_le (extAttrs_le as)

theorem attributedType_le : ∀ t : AttributedType, Le (attributedType t) (D (.n .TypeWithExtendedAttributes))
  | .mk as t => by
    rw [attributedType]
    exact (Le.seq (attributes_le as) (type_le t)).trans (std [.n .ExtendedAttributeList, .n .Type_])

theorem namedAttributed_le : ∀ (t : AttributedType) (i : Str),
    Le (namedAttributed t i) (D (.n .TypeWithExtendedAttributes) ⨾ D .identifier)
  | .mk as t, i => by
    rw [namedAttributed]
    have := Le.seq (attributes_le as) (named_le' (type_le t) i)
    rw [← seq_assoc] at this
    exact this.trans (Le.seq (std [.n .ExtendedAttributeList, .n .Type_]) (Le.refl _))

theorem argument_le : ∀ a : Argument, Le (argument a) (D (.n .Argument))
  | .single as o t i d => by
    rw [argument]
    refine (Le.seq (attributes_le as) ?_).trans (std [.n .ExtendedAttributeList, .n .ArgumentRest])
    split
    · have := Le.seq (tok_le c!"optional") (Le.seq ((namedAttributed_le t i).trans (Le.seq (Le.refl _) argumentName_le))
        (default_le d))
      rw [seq_assoc] at this
      exact this.trans (std [.t c!"optional", .n .TypeWithExtendedAttributes, .n .ArgumentName, .n .Default])
    · rintro ls ⟨-, h, -⟩
      exact (((namedAttributed_le t i).trans (Le.seq (Le.refl _) argumentName_le)).trans
        (ext [.n .TypeWithExtendedAttributes, .n .ArgumentName])) ls h
  | .variadic as t i => by
    rw [argument]
    refine (Le.seq (attributes_le as) ?_).trans (std [.n .ExtendedAttributeList, .n .ArgumentRest])
    exact (Le.seq (type_le t) (Le.seq ((tok_le _).trans (std (N := .Ellipsis) [.t c!"..."]))
      ((name_le i).trans argumentName_le))).trans (std [.n .Type_, .n .Ellipsis, .n .ArgumentName])

theorem arguments_le : ∀ as : List Argument, ∀ B ∈ arguments as, Le B (D (.n .Argument))
  | [], B, h => by simp [arguments] at h
  | a :: as, B, h => by
    rw [arguments] at h
    rcases List.mem_cons.1 h with rfl | h
    · exact argument_le a
    · exact arguments_le as B h

end

end Verif.WebIDL
