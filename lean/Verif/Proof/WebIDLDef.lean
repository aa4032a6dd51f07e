import Verif.Proof.WebIDLType

/-! # Web IDL is contained in the grammar of the parser: members and definitions -/

namespace Verif.WebIDL
open Nom Spec Spec.WebIDL

/-! ## Operations -/

theorem closed_OptionalReadOnly : Closed .OptionalReadOnly := by
  refine alt ?_ (alt ?_ done)
  · rintro _ rfl
    exact ⟨true, rfl⟩
  · rintro _ rfl
    exact ⟨false, rfl⟩

theorem closed_AttributeRest : Closed .AttributeRest := by
  refine alt ?_ done
  rintro _ ⟨_, _, rfl, rfl, a, _, rfl, ⟨⟨t, ha⟩, -⟩, i, _, rfl, ⟨I, hi, hn⟩, rfl⟩
  refine ⟨t, I, seq_mk rfl ?_⟩
  rw [← List.append_assoc]
  exact seq_mk (namedAttributed_mk ha hi hn) rfl

theorem closed_OptionalOperationName : Closed .OptionalOperationName := by
  refine alt ?_ (alt ?_ done)
  · rintro _ ⟨i, hi, hn⟩
    exact ⟨some i, fun r a hr => named_mk hr hi hn⟩
  · rintro _ rfl
    exact ⟨none, fun r a hr => by rw [List.append_nil]; exact hr⟩

theorem closed_OperationRest : Closed .OperationRest := by
  refine alt ?_ done
  rintro _ ⟨o, _, rfl, ⟨O, ho⟩, _, _, rfl, rfl, a, _, rfl, ⟨as, ha⟩, _, _, rfl, rfl, rfl⟩
  refine ⟨O, as, fun r l hr => ?_⟩
  rw [← List.append_assoc]
  exact seq_mk (ho r l hr) (parens_mk ha rfl)

theorem closed_RegularOperation : Closed .RegularOperation := by
  refine alt ?_ done
  rintro _ ⟨a, b, rfl, ⟨⟨r, ha⟩, h⟩, o, args, hb⟩
  exact ⟨h.hd0 b, r, o, args, hb r a ha⟩

/-- The tokens do not begin with `w`. -/
theorem avoid_head {A : Lang} {w : Str} {b : List Str} {ps : List (List Str)} (hA : A ([w] ++ b))
    (h : ∀ p ∈ ps, ∃ v, p = v :: p.tail ∧ v ≠ w) : avoiding ps A ([w] ++ b) := by
  refine ⟨hA, fun p hp hpre => ?_⟩
  obtain ⟨v, he, hv⟩ := h p hp
  obtain ⟨x, hx⟩ := hpre
  rw [he] at hx
  simp at hx
  exact hv hx.1

theorem regular_im {ls : List Str} (h : M .RegularOperation ls) : IM ls := by
  obtain ⟨hh, r, o, args, h⟩ := h
  intro as l0 has
  refine ⟨.operation ⟨as, none, none, r, o, args⟩, seq_mk has ?_⟩
  exact hh.avoid (hh.avoid (hh.avoid h _ (by decide)) _ (by decide)) _ (by decide)

theorem regular_stringifier {ls : List Str} (h : M .RegularOperation ls) : IM ([c!"stringifier"] ++ ls) := by
  obtain ⟨hh, r, o, args, h⟩ := h
  intro as l0 has
  refine ⟨.operation ⟨as, some .stringifier, none, r, o, args⟩, seq_mk has (avoid_head ?_ ?_)⟩
  · exact seq_mk rfl (hh.avoid h _ (by decide))
  · simp

theorem regular_static {ls : List Str} (h : M .RegularOperation ls) : IM ([c!"static"] ++ ls) := by
  obtain ⟨hh, r, o, args, h⟩ := h
  intro as l0 has
  refine ⟨.operation ⟨as, some .static, none, r, o, args⟩, seq_mk has (avoid_head ?_ ?_)⟩
  · exact seq_mk rfl (hh.avoid h _ (by decide))
  · simp

theorem regular_mm {ls : List Str} (h : M .RegularOperation ls) : MM ls := by
  obtain ⟨hh, r, o, args, h⟩ := h
  intro as l0 has
  exact ⟨.operation ⟨as, false, r, o, args⟩, seq_mk has (hh.avoid h _ (by decide))⟩

theorem regular_mm_stringifier {ls : List Str} (h : M .RegularOperation ls) : MM ([c!"stringifier"] ++ ls) := by
  obtain ⟨hh, r, o, args, h⟩ := h
  intro as l0 has
  exact ⟨.operation ⟨as, true, r, o, args⟩, seq_mk has (seq_mk rfl h)⟩

theorem regular_nm {ls : List Str} (h : M .RegularOperation ls) : NM ls := by
  obtain ⟨hh, r, o, args, h⟩ := h
  intro as l0 has
  exact ⟨.operation ⟨as, r, o, args⟩, seq_mk has h⟩

theorem attribute_im {a b : List Str} (ha : M .OptionalReadOnly a) (hb : M .AttributeRest b)
    (m : Option StringifierOrInheritOrStatic) {c : List Str} (hc : modifier m c) : IM (c ++ (a ++ b)) := by
  obtain ⟨q, ha⟩ := ha
  obtain ⟨t, i, hb⟩ := hb
  intro as l0 has
  exact ⟨.attribute ⟨as, m, q, t, i⟩, seq_mk has (seq_mk hc (seq_mk ha hb))⟩

theorem attribute_mm {a b : List Str} (ha : M .OptionalReadOnly a) (hb : M .AttributeRest b)
    (m : Bool) {c : List Str} (hc : optTok m c!"stringifier" c) : MM (c ++ (a ++ b)) := by
  obtain ⟨q, ha⟩ := ha
  obtain ⟨t, i, hb⟩ := hb
  intro as l0 has
  exact ⟨.attribute ⟨as, m, q, t, i⟩, seq_mk has (seq_mk hc (seq_mk ha hb))⟩

theorem const_im {ls : List Str} (h : M .Const ls) : IM ls := fun as l0 has => by
  obtain ⟨m, hm⟩ := h as l0 has
  exact ⟨.const m, hm⟩

theorem const_mm {ls : List Str} (h : M .Const ls) : MM ls := fun as l0 has => by
  obtain ⟨m, hm⟩ := h as l0 has
  exact ⟨.const m, hm⟩

theorem const_nm {ls : List Str} (h : M .Const ls) : NM ls := fun as l0 has => by
  obtain ⟨m, hm⟩ := h as l0 has
  exact ⟨.const m, hm⟩

theorem closed_Const : Closed .Const := by
  refine alt ?_ done
  rintro _ ⟨_, _, rfl, rfl, a, _, rfl, ⟨t, ha⟩, i, _, rfl, hi, _, _, rfl, rfl, v, _, rfl, ⟨V, hv⟩, rfl⟩ as l0 has
  obtain ⟨I, hi, hn⟩ := Idf.nm hi
  refine ⟨⟨as, t, I, V⟩, seq_mk has (seq_mk rfl ?_)⟩
  rw [← List.append_assoc]
  exact seq_mk (named_mk ha hi hn) (seq_mk rfl (seq_mk hv rfl))

theorem closed_Special : Closed .Special := by
  refine alt ?_ (alt ?_ (alt ?_ (alt ?_ done))) <;> rintro _ rfl
  · exact ⟨.getter, _, rfl, by decide, fun A b h => seq_mk rfl h⟩
  · exact ⟨.setter, _, rfl, by decide, fun A b h => seq_mk rfl h⟩
  · exact ⟨.deleter, _, rfl, by decide, fun A b h => seq_mk rfl h⟩
  · exact ⟨.legacyCaller, _, rfl, by decide, fun A b h => seq_mk rfl h⟩

theorem closed_SpecialOperation : Closed .SpecialOperation := by
  refine alt ?_ done
  rintro _ ⟨_, b, rfl, ⟨s, w, rfl, hw, h⟩, hh, r, o, args, hb⟩
  simp only [List.mem_cons, List.not_mem_nil, or_false, not_or] at hw
  refine ⟨fun as l0 has => ?_, fun as l0 has => ?_, fun as l0 has => ?_⟩
  · refine ⟨.operation ⟨as, none, some s, r, o, args⟩, seq_mk has ?_⟩
    refine avoid_head (avoid_head (h _ _ hb) ?_) ?_
    · exact List.forall_mem_cons.2 ⟨⟨_, rfl, Ne.symm hw.2.1⟩, List.forall_mem_cons.2 ⟨⟨_, rfl, Ne.symm hw.2.2⟩, nofun⟩⟩
    · exact List.forall_mem_cons.2 ⟨⟨_, rfl, Ne.symm hw.1⟩, nofun⟩
  · refine ⟨.operation ⟨as, some .stringifier, some s, r, o, args⟩, seq_mk has (avoid_head (seq_mk rfl (h _ _ hb)) ?_)⟩
    simp
  · refine ⟨.operation ⟨as, some .static, some s, r, o, args⟩, seq_mk has (avoid_head (seq_mk rfl (h _ _ hb)) ?_)⟩
    simp

theorem closed_Operation : Closed .Operation := by
  refine alt ?_ (alt ?_ done)
  · exact fun _ h => regular_im h
  · exact fun _ h => h.1

theorem closed_Constructor : Closed .Constructor := by
  refine alt ?_ done
  rintro _ ⟨_, _, rfl, rfl, _, _, rfl, rfl, a, _, rfl, ⟨A, ha⟩, _, _, rfl, rfl, rfl⟩ as l0 has
  exact ⟨.constructor ⟨as, A⟩, seq_mk has (seq_mk rfl (parens_mk ha rfl))⟩

theorem closed_StringifierRest : Closed .StringifierRest := by
  refine alt ?_ (alt ?_ (alt ?_ done))
  · rintro _ ⟨a, b, rfl, ha, hb⟩
    exact ⟨attribute_im ha hb (some .stringifier) rfl, attribute_mm ha hb true rfl⟩
  · intro _ h
    exact ⟨regular_stringifier h, regular_mm_stringifier h⟩
  · rintro _ rfl
    exact ⟨fun as l0 has => ⟨.stringifier ⟨as⟩, seq_mk has (seq_mk (a := [_]) rfl rfl)⟩,
      fun as l0 has => ⟨.stringifier ⟨as⟩, seq_mk has (seq_mk (a := [_]) rfl rfl)⟩⟩

theorem closed_Stringifier : Closed .Stringifier := by
  refine alt ?_ done
  rintro _ ⟨_, a, rfl, rfl, ha⟩
  exact ha

theorem closed_StaticMemberRest : Closed .StaticMemberRest := by
  refine alt ?_ (alt ?_ done)
  · rintro _ ⟨a, b, rfl, ha, hb⟩
    exact attribute_im ha hb (some .static) rfl
  · exact fun _ h => regular_static h

theorem closed_StaticMember : Closed .StaticMember := by
  refine alt ?_ done
  rintro _ ⟨_, a, rfl, rfl, ha⟩
  exact ha

theorem closed_OptionalType : Closed .OptionalType := by
  refine alt ?_ (alt ?_ done)
  · rintro _ ⟨_, a, rfl, rfl, ⟨t, ha⟩, -⟩
    exact .inr ⟨t, seq_mk rfl ha⟩
  · rintro _ rfl
    exact .inl rfl

theorem closed_OptionalArgumentList : Closed .OptionalArgumentList := by
  refine alt ?_ (alt ?_ done)
  · rintro _ ⟨_, _, rfl, rfl, a, _, rfl, ⟨A, ha⟩, rfl⟩
    exact ⟨some A, seq_mk rfl (seq_mk ha rfl)⟩
  · rintro _ rfl
    exact ⟨none, rfl⟩

theorem closed_Iterable : Closed .Iterable := by
  refine alt ?_ done
  rintro _ ⟨_, _, rfl, rfl, _, _, rfl, rfl, a, _, rfl, ⟨⟨A, ha⟩, -⟩, b, _, rfl, hb, _, _, rfl, rfl, rfl⟩ as l0 has
  rcases hb with rfl | ⟨B, hb⟩
  · exact ⟨.iterable (.single as A), seq_mk has (seq_mk rfl (angles_mk ha rfl))⟩
  · refine ⟨.iterable (.double as (A, B)), seq_mk has (seq_mk rfl ?_)⟩
    rw [← List.append_assoc a]
    exact angles_mk (seq_mk ha hb) rfl

theorem closed_AsyncIterable : Closed .AsyncIterable := by
  refine alt ?_ done
  rintro _ ⟨_, _, rfl, rfl, _, _, rfl, rfl, _, _, rfl, rfl, a, _, rfl, ⟨⟨A, ha⟩, -⟩, b, _, rfl, hb, _, _, rfl, rfl, c, _, rfl,
    ⟨C, hc⟩, rfl⟩ as l0 has
  rcases hb with rfl | ⟨B, hb⟩
  · exact ⟨.asyncIterable (.single as A C), seq_mk has (seq_mk rfl (seq_mk rfl (angles_mk ha (seq_mk hc rfl))))⟩
  · refine ⟨.asyncIterable (.double as (A, B) C), seq_mk has (seq_mk rfl (seq_mk rfl ?_))⟩
    rw [← List.append_assoc a]
    exact angles_mk (seq_mk ha hb) (seq_mk hc rfl)

theorem closed_MaplikeRest : Closed .MaplikeRest := by
  refine alt ?_ done
  rintro _ ⟨_, _, rfl, rfl, _, _, rfl, rfl, a, _, rfl, ⟨⟨A, ha⟩, -⟩, _, _, rfl, rfl, b, _, rfl, ⟨⟨B, hb⟩, -⟩, _, _, rfl, rfl, rfl⟩
  have h := seq_mk (A := tok c!"maplike") (a := [_]) rfl (angles_mk (A := typePair (A, B))
    (seq_mk ha (seq_mk (a := [_]) rfl hb)) (B := tok c!";") (b := [_]) rfl)
  simp only [List.append_assoc] at h
  exact ⟨fun as l0 has => ⟨.maplike ⟨as, false, (A, B)⟩, seq_mk has (seq_nil rfl h)⟩,
    fun as l0 has => ⟨.maplike ⟨as, true, (A, B)⟩, seq_mk has (seq_mk rfl h)⟩⟩

theorem closed_SetlikeRest : Closed .SetlikeRest := by
  refine alt ?_ done
  rintro _ ⟨_, _, rfl, rfl, _, _, rfl, rfl, a, _, rfl, ⟨⟨A, ha⟩, -⟩, _, _, rfl, rfl, rfl⟩
  have h := seq_mk (A := tok c!"setlike") (a := [_]) rfl (angles_mk ha (B := tok c!";") (b := [_]) rfl)
  exact ⟨fun as l0 has => ⟨.setlike ⟨as, false, A⟩, seq_mk has (seq_nil rfl h)⟩,
    fun as l0 has => ⟨.setlike ⟨as, true, A⟩, seq_mk has (seq_mk rfl h)⟩⟩

theorem closed_ReadWriteMaplike : Closed .ReadWriteMaplike := alt (fun _ h => h.1) done
theorem closed_ReadWriteSetlike : Closed .ReadWriteSetlike := alt (fun _ h => h.1) done

theorem closed_ReadWriteAttribute : Closed .ReadWriteAttribute :=
  alt (fun _ h => attribute_im (a := []) ⟨false, rfl⟩ h none (c := []) rfl) done

theorem closed_InheritAttribute : Closed .InheritAttribute := by
  refine alt ?_ done
  rintro _ ⟨_, a, rfl, rfl, ha⟩
  exact attribute_im (a := []) ⟨false, rfl⟩ ha (some .inherit) (c := [_]) rfl

theorem closed_ReadOnlyMemberRest : Closed .ReadOnlyMemberRest := by
  refine alt ?_ (alt ?_ (alt ?_ done))
  · exact fun _ h => attribute_im (a := [_]) ⟨true, rfl⟩ h none (c := []) rfl
  · exact fun _ h => h.2
  · exact fun _ h => h.2

theorem closed_ReadOnlyMember : Closed .ReadOnlyMember := by
  refine alt ?_ done
  rintro _ ⟨_, a, rfl, rfl, ha⟩
  exact ha

/-! ## Members -/

theorem closed_PartialInterfaceMember : Closed .PartialInterfaceMember := by
  refine alt ?_ (alt ?_ (alt ?_ (alt ?_ (alt ?_ (alt ?_ (alt ?_ (alt ?_ (alt ?_ (alt ?_ (alt ?_ done))))))))))
  · exact fun _ h => const_im h
  · exact fun _ h => h
  · exact fun _ h => h.1
  all_goals exact fun _ h => h

theorem closed_InterfaceMember : Closed .InterfaceMember := alt (fun _ h => h) (alt (fun _ h => h) done)

theorem closed_CallbackInterfaceMember : Closed .CallbackInterfaceMember :=
  alt (fun _ h => const_im h) (alt (fun _ h => regular_im h) done)

theorem closed_MixinMember : Closed .MixinMember := by
  refine alt ?_ (alt ?_ (alt ?_ (alt ?_ done)))
  · exact fun _ h => const_mm h
  · exact fun _ h => regular_mm h
  · exact fun _ h => h.2
  · rintro _ ⟨a, b, rfl, ha, hb⟩
    exact attribute_mm ha hb false (c := []) rfl

theorem closed_NamespaceMember : Closed .NamespaceMember := by
  refine alt ?_ (alt ?_ (alt ?_ done))
  · exact fun _ h => regular_nm h
  · rintro _ ⟨_, a, rfl, rfl, t, i, ha⟩ as l0 has
    exact ⟨.attribute ⟨as, t, i⟩, seq_mk has (seq_mk rfl ha)⟩
  · exact fun _ h => const_nm h

theorem closed_DictionaryMemberRest : Closed .DictionaryMemberRest := by
  refine alt ?_ (alt ?_ done)
  · rintro _ ⟨_, _, rfl, rfl, a, _, rfl, ⟨⟨t, ha⟩, -⟩, i, _, rfl, hi, rfl⟩ as l0 has
    obtain ⟨I, hi, hn⟩ := Idf.nm hi
    refine ⟨⟨as, true, t, I, none⟩, seq_mk has (seq_mk rfl ?_)⟩
    rw [← List.append_assoc]
    exact seq_mk (named_mk ha hi hn) (seq_nil rfl rfl)
  · rintro _ ⟨a, _, rfl, ⟨⟨t, ha⟩, hh⟩, i, _, rfl, hi, d, _, rfl, ⟨D, hd⟩, rfl⟩ as l0 has
    obtain ⟨I, hi, hn⟩ := Idf.nm hi
    refine ⟨⟨as, false, t, I, D⟩, seq_mk has ((hh.hd0 _).avoid ?_ _ (by decide))⟩
    rw [← List.append_assoc]
    exact seq_mk (named_mk ha hi hn) (seq_mk hd rfl)

theorem closed_DictionaryMember : Closed .DictionaryMember := by
  refine alt ?_ done
  rintro _ ⟨a, b, rfl, ⟨as, ha⟩, hb⟩
  exact hb as a ha

/-- Elements one after the other. -/
theorem members_cons {α : Type} {L : α → Lang} {a b c : List Str} (ha : Ex attributes a)
    (hb : ∀ as l0, attributes as l0 → ∃ m, L m (l0 ++ b)) (hc : Ex (fun ms : List α => concat (ms.map L)) c) :
    Ex (fun ms : List α => concat (ms.map L)) (a ++ (b ++ c)) := by
  obtain ⟨as, ha⟩ := ha
  obtain ⟨m, hm⟩ := hb as a ha
  obtain ⟨ms, hc⟩ := hc
  rw [← List.append_assoc]
  exact ⟨m :: ms, seq_mk hm hc⟩

theorem closed_InterfaceMembers : Closed .InterfaceMembers := by
  refine alt ?_ (alt ?_ done)
  · rintro _ ⟨a, _, rfl, ha, b, c, rfl, hb, hc⟩
    exact members_cons ha hb hc
  · rintro _ rfl
    exact ⟨[], rfl⟩

theorem closed_PartialInterfaceMembers : Closed .PartialInterfaceMembers := by
  refine alt ?_ (alt ?_ done)
  · rintro _ ⟨a, _, rfl, ha, b, c, rfl, hb, hc⟩
    exact members_cons ha hb hc
  · rintro _ rfl
    exact ⟨[], rfl⟩

theorem closed_CallbackInterfaceMembers : Closed .CallbackInterfaceMembers := by
  refine alt ?_ (alt ?_ done)
  · rintro _ ⟨a, _, rfl, ha, b, c, rfl, hb, hc⟩
    exact members_cons ha hb hc
  · rintro _ rfl
    exact ⟨[], rfl⟩

theorem closed_MixinMembers : Closed .MixinMembers := by
  refine alt ?_ (alt ?_ done)
  · rintro _ ⟨a, _, rfl, ha, b, c, rfl, hb, hc⟩
    exact members_cons ha hb hc
  · rintro _ rfl
    exact ⟨[], rfl⟩

theorem closed_NamespaceMembers : Closed .NamespaceMembers := by
  refine alt ?_ (alt ?_ done)
  · rintro _ ⟨a, _, rfl, ha, b, c, rfl, hb, hc⟩
    exact members_cons ha hb hc
  · rintro _ rfl
    exact ⟨[], rfl⟩

theorem closed_DictionaryMembers : Closed .DictionaryMembers := by
  refine alt ?_ (alt ?_ done)
  · rintro _ ⟨a, b, rfl, ⟨m, hm⟩, ms, hb⟩
    exact ⟨m :: ms, seq_mk hm hb⟩
  · rintro _ rfl
    exact ⟨[], rfl⟩

/-! ## Definitions -/

theorem closed_Definitions : Closed .Definitions := by
  refine alt ?_ (alt ?_ done)
  · rintro _ ⟨a, _, rfl, ha, b, c, rfl, hb, hc⟩
    exact members_cons ha hb hc
  · rintro _ rfl
    exact ⟨[], rfl⟩

theorem closed_Inheritance : Closed .Inheritance := by
  refine alt ?_ (alt ?_ done)
  · rintro _ ⟨_, a, rfl, rfl, ha⟩
    obtain ⟨i, hi⟩ := Idf.name ha
    exact ⟨some i, seq_mk rfl hi⟩
  · rintro _ rfl
    exact ⟨none, rfl⟩

theorem body_mk {α : Type} {L : α → Lang} {ms : List α} {a : List Str} (h : concat (ms.map L) a) :
    body L ms ([c!"{"] ++ (a ++ ([c!"}"] ++ [c!";"]))) := braces_mk h rfl

theorem closed_InterfaceRest : Closed .InterfaceRest := by
  refine alt ?_ done
  rintro _ ⟨i, _, rfl, hi, j, _, rfl, ⟨J, hj⟩, _, _, rfl, rfl, a, _, rfl, ⟨ms, ha⟩, _, _, rfl, rfl, rfl⟩
  obtain ⟨I, hi⟩ := Idf.name hi
  exact ⟨fun as l0 has => ⟨.interface as I J ms, seq_mk has (seq_mk rfl (seq_mk hi (seq_mk hj (body_mk ha))))⟩,
    fun as l0 has => ⟨.callbackInterface as I J ms, seq_mk has (seq_mk rfl (seq_mk rfl (seq_mk hi (seq_mk hj (body_mk ha)))))⟩⟩

theorem closed_MixinRest : Closed .MixinRest := by
  refine alt ?_ done
  rintro _ ⟨_, _, rfl, rfl, i, _, rfl, hi, _, _, rfl, rfl, a, _, rfl, ⟨ms, ha⟩, _, _, rfl, rfl, rfl⟩
  obtain ⟨I, hi⟩ := Idf.name hi
  exact ⟨fun as l0 has =>
      ⟨.interfaceMixin as I ms, seq_mk has (seq_mk rfl (seq_mk rfl (seq_mk hi (body_mk ha))))⟩,
    fun as l0 has =>
      ⟨.partialInterfaceMixin as I ms, seq_mk has (seq_mk rfl (seq_mk rfl (seq_mk rfl (seq_mk hi (body_mk ha)))))⟩⟩

theorem closed_InterfaceOrMixin : Closed .InterfaceOrMixin := alt (fun _ h => h.1) (alt (fun _ h => h.1) done)

theorem closed_PartialInterfaceRest : Closed .PartialInterfaceRest := by
  refine alt ?_ done
  rintro _ ⟨i, _, rfl, hi, _, _, rfl, rfl, a, _, rfl, ⟨ms, ha⟩, _, _, rfl, rfl, rfl⟩ as l0 has
  obtain ⟨I, hi⟩ := Idf.name hi
  exact ⟨.partialInterface as I ms, seq_mk has (seq_mk rfl (seq_mk rfl (seq_mk hi (body_mk ha))))⟩

theorem closed_PartialInterfaceOrPartialMixin : Closed .PartialInterfaceOrPartialMixin :=
  alt (fun _ h => h) (alt (fun _ h => h.2) done)

theorem closed_Namespace : Closed .Namespace := by
  refine alt ?_ done
  rintro _ ⟨_, _, rfl, rfl, i, _, rfl, hi, _, _, rfl, rfl, a, _, rfl, ⟨ms, ha⟩, _, _, rfl, rfl, rfl⟩
  obtain ⟨I, hi⟩ := Idf.name hi
  exact ⟨fun as l0 has => ⟨.namespace as I ms, seq_mk has (seq_mk rfl (seq_mk hi (body_mk ha)))⟩,
    fun as l0 has => ⟨.partialNamespace as I ms, seq_mk has (seq_mk rfl (seq_mk rfl (seq_mk hi (body_mk ha))))⟩⟩

theorem closed_Dictionary : Closed .Dictionary := by
  refine alt ?_ done
  rintro _ ⟨_, _, rfl, rfl, i, _, rfl, hi, j, _, rfl, ⟨J, hj⟩, _, _, rfl, rfl, a, _, rfl, ⟨ms, ha⟩, _, _, rfl, rfl, rfl⟩
    as l0 has
  obtain ⟨I, hi⟩ := Idf.name hi
  exact ⟨.dictionary as I J ms, seq_mk has (seq_mk rfl (seq_mk hi (seq_mk hj (body_mk ha))))⟩

theorem closed_PartialDictionary : Closed .PartialDictionary := by
  refine alt ?_ done
  rintro _ ⟨_, _, rfl, rfl, i, _, rfl, hi, _, _, rfl, rfl, a, _, rfl, ⟨ms, ha⟩, _, _, rfl, rfl, rfl⟩ as l0 has
  obtain ⟨I, hi⟩ := Idf.name hi
  exact ⟨.partialDictionary as I ms, seq_mk has (seq_mk rfl (seq_mk rfl (seq_mk hi (body_mk ha))))⟩

theorem closed_PartialDefinition : Closed .PartialDefinition := by
  refine alt ?_ (alt ?_ (alt ?_ done))
  · rintro _ ⟨_, a, rfl, rfl, ha⟩
    exact ha
  · exact fun _ h => h
  · exact fun _ h => h.2

theorem closed_Partial : Closed .Partial := by
  refine alt ?_ done
  rintro _ ⟨_, a, rfl, rfl, ha⟩
  exact ha

theorem closed_IncludesStatement : Closed .IncludesStatement := by
  refine alt ?_ done
  rintro _ ⟨i, _, rfl, hi, _, _, rfl, rfl, j, _, rfl, hj, rfl⟩ as l0 has
  have hp := Idf.avoid hi (terminal_any c!"typedef" (by decide))
  obtain ⟨I, hi⟩ := Idf.name hi
  obtain ⟨J, hj⟩ := Idf.name hj
  refine ⟨.includesStatement as I J, seq_mk has (seq_mk ⟨hi, ?_⟩ (seq_mk rfl (seq_mk hj rfl)))⟩
  simpa using hp

theorem closed_CallbackRest : Closed .CallbackRest := by
  refine alt ?_ done
  rintro _ ⟨i, _, rfl, hi, _, _, rfl, rfl, r, _, rfl, ⟨⟨R, hr⟩, -⟩, _, _, rfl, rfl, a, _, rfl, ⟨A, ha⟩, _, _, rfl, rfl, rfl⟩
    as l0 has
  obtain ⟨I, hi⟩ := Idf.name hi
  exact ⟨.callback as I R A, seq_mk has (seq_mk rfl (seq_mk hi (seq_mk rfl (seq_mk hr (parens_mk ha rfl)))))⟩

theorem closed_CallbackRestOrInterface : Closed .CallbackRestOrInterface := by
  refine alt ?_ (alt ?_ done)
  · exact fun _ h => h
  · rintro _ ⟨_, _, rfl, rfl, i, _, rfl, hi, _, _, rfl, rfl, a, _, rfl, ⟨ms, ha⟩, _, _, rfl, rfl, rfl⟩ as l0 has
    obtain ⟨I, hi⟩ := Idf.name hi
    exact ⟨.callbackInterface as I none ms, seq_mk has (seq_mk rfl (seq_mk rfl (seq_mk hi (seq_nil rfl (body_mk ha)))))⟩

theorem closed_CallbackOrInterfaceOrMixin : Closed .CallbackOrInterfaceOrMixin := by
  refine alt ?_ (alt ?_ done)
  · rintro _ ⟨_, a, rfl, rfl, ha⟩
    exact ha
  · rintro _ ⟨_, a, rfl, rfl, ha⟩
    exact ha

theorem closed_Typedef : Closed .Typedef := by
  refine alt ?_ done
  rintro _ ⟨_, _, rfl, rfl, a, _, rfl, ⟨⟨t, ha⟩, -⟩, i, _, rfl, hi, rfl⟩ as l0 has
  obtain ⟨I, hi, hn⟩ := Idf.nm hi
  refine ⟨.typedef as t I, seq_mk has (seq_mk rfl ?_)⟩
  rw [← List.append_assoc]
  exact seq_mk (namedAttributed_mk ha hi hn) rfl

theorem closed_Enum : Closed .Enum := by
  refine alt ?_ done
  rintro _ ⟨_, _, rfl, rfl, i, _, rfl, hi, _, _, rfl, rfl, a, _, rfl, ⟨vs, ha⟩, _, _, rfl, rfl, rfl⟩ as l0 has
  obtain ⟨I, hi⟩ := Idf.name hi
  exact ⟨.enum as I vs, seq_mk has (seq_mk rfl (seq_mk hi (braces_mk ha rfl)))⟩

theorem closed_EnumValueList : Closed .EnumValueList := by
  refine alt ?_ done
  rintro _ ⟨a, b, rfl, ⟨v, ha⟩, hb⟩
  obtain ⟨vs, h⟩ := hb v a ha
  exact ⟨v :: vs, h⟩

theorem closed_EnumValueListComma : Closed .EnumValueListComma := by
  refine alt ?_ (alt ?_ done)
  · rintro _ ⟨_, b, rfl, rfl, hb⟩
    exact hb
  · rintro _ rfl v l0 h
    exact ⟨[], by simp, false, seq_mk h rfl⟩

theorem closed_EnumValueListString : Closed .EnumValueListString := by
  refine alt ?_ (alt ?_ done)
  · rintro _ ⟨a, b, rfl, ⟨v, ha⟩, hb⟩ w l0 h
    obtain ⟨vs, -, q, c, d, he, hc, hd⟩ := hb v a ha
    refine ⟨v :: vs, by simp, q, l0 ++ ([c!","] ++ c), d, by simp [he], sepBy_cons (b := [_]) h rfl hc, hd⟩
  · rintro _ rfl v l0 h
    exact ⟨[], by simp, true, seq_mk h rfl⟩

theorem closed_Definition : Closed .Definition := by
  refine alt ?_ (alt ?_ (alt ?_ (alt ?_ (alt ?_ (alt ?_ (alt ?_ done))))))
  · exact fun _ h => h
  · exact fun _ h => h.1
  all_goals exact fun _ h => h

theorem closed_all (N : NonTerminal) : Closed N := by
  cases N
  case Type_ => exact closed_Type
  case Generic => exact alt (fun _ h => h) done
  case Required => exact alt (fun _ h => h) done
  case Definitions => exact closed_Definitions
  case Definition => exact closed_Definition
  case ArgumentNameKeyword => exact closed_ArgumentNameKeyword
  case CallbackOrInterfaceOrMixin => exact closed_CallbackOrInterfaceOrMixin
  case InterfaceOrMixin => exact closed_InterfaceOrMixin
  case InterfaceRest => exact closed_InterfaceRest
  case Partial => exact closed_Partial
  case PartialDefinition => exact closed_PartialDefinition
  case PartialInterfaceOrPartialMixin => exact closed_PartialInterfaceOrPartialMixin
  case PartialInterfaceRest => exact closed_PartialInterfaceRest
  case InterfaceMembers => exact closed_InterfaceMembers
  case InterfaceMember => exact closed_InterfaceMember
  case PartialInterfaceMembers => exact closed_PartialInterfaceMembers
  case PartialInterfaceMember => exact closed_PartialInterfaceMember
  case Inheritance => exact closed_Inheritance
  case MixinRest => exact closed_MixinRest
  case MixinMembers => exact closed_MixinMembers
  case MixinMember => exact closed_MixinMember
  case IncludesStatement => exact closed_IncludesStatement
  case CallbackRestOrInterface => exact closed_CallbackRestOrInterface
  case CallbackInterfaceMembers => exact closed_CallbackInterfaceMembers
  case CallbackInterfaceMember => exact closed_CallbackInterfaceMember
  case Const => exact closed_Const
  case ConstValue => exact closed_ConstValue
  case BooleanLiteral => exact closed_BooleanLiteral
  case FloatLiteral => exact closed_FloatLiteral
  case ConstType => exact closed_ConstType
  case ReadOnlyMember => exact closed_ReadOnlyMember
  case ReadOnlyMemberRest => exact closed_ReadOnlyMemberRest
  case ReadWriteAttribute => exact closed_ReadWriteAttribute
  case InheritAttribute => exact closed_InheritAttribute
  case AttributeRest => exact closed_AttributeRest
  case AttributeName => exact closed_AttributeName
  case AttributeNameKeyword => exact closed_AttributeNameKeyword
  case OptionalReadOnly => exact closed_OptionalReadOnly
  case DefaultValue => exact closed_DefaultValue
  case Operation => exact closed_Operation
  case RegularOperation => exact closed_RegularOperation
  case SpecialOperation => exact closed_SpecialOperation
  case Special => exact closed_Special
  case OperationRest => exact closed_OperationRest
  case OptionalOperationName => exact closed_OptionalOperationName
  case OperationName => exact closed_OperationName
  case OperationNameKeyword => exact closed_OperationNameKeyword
  case ArgumentList => exact closed_ArgumentList
  case Arguments => exact closed_Arguments
  case Argument => exact closed_Argument
  case ArgumentRest => exact closed_ArgumentRest
  case ArgumentName => exact closed_ArgumentName
  case Ellipsis => exact closed_Ellipsis
  case ReturnType => exact closed_ReturnType
  case Constructor => exact closed_Constructor
  case Stringifier => exact closed_Stringifier
  case StringifierRest => exact closed_StringifierRest
  case StaticMember => exact closed_StaticMember
  case StaticMemberRest => exact closed_StaticMemberRest
  case Iterable => exact closed_Iterable
  case OptionalType => exact closed_OptionalType
  case AsyncIterable => exact closed_AsyncIterable
  case OptionalArgumentList => exact closed_OptionalArgumentList
  case ReadWriteMaplike => exact closed_ReadWriteMaplike
  case MaplikeRest => exact closed_MaplikeRest
  case ReadWriteSetlike => exact closed_ReadWriteSetlike
  case SetlikeRest => exact closed_SetlikeRest
  case Namespace => exact closed_Namespace
  case NamespaceMembers => exact closed_NamespaceMembers
  case NamespaceMember => exact closed_NamespaceMember
  case Dictionary => exact closed_Dictionary
  case DictionaryMembers => exact closed_DictionaryMembers
  case DictionaryMember => exact closed_DictionaryMember
  case DictionaryMemberRest => exact closed_DictionaryMemberRest
  case PartialDictionary => exact closed_PartialDictionary
  case Default => exact closed_Default
  case Enum => exact closed_Enum
  case EnumValueList => exact closed_EnumValueList
  case EnumValueListComma => exact closed_EnumValueListComma
  case EnumValueListString => exact closed_EnumValueListString
  case CallbackRest => exact closed_CallbackRest
  case Typedef => exact closed_Typedef
  case TypeWithExtendedAttributes => exact closed_TypeWithExtendedAttributes
  case SingleType => exact closed_SingleType
  case UnionType => exact closed_UnionType
  case UnionMemberType => exact closed_UnionMemberType
  case UnionMemberTypes => exact closed_UnionMemberTypes
  case DistinguishableType => exact closed_DistinguishableType
  case PrimitiveType => exact closed_PrimitiveType
  case UnrestrictedFloatType => exact closed_UnrestrictedFloatType
  case FloatType => exact closed_FloatType
  case UnsignedIntegerType => exact closed_UnsignedIntegerType
  case IntegerType => exact closed_IntegerType
  case OptionalLong => exact closed_OptionalLong
  case StringType => exact closed_StringType
  case PromiseType => exact closed_PromiseType
  case RecordType => exact closed_RecordType
  case Null => exact closed_Null
  case BufferRelatedType => exact closed_BufferRelatedType
  case ExtendedAttributeList => exact closed_ExtendedAttributeList
  case ExtendedAttributes => exact closed_ExtendedAttributes
  case ExtendedAttribute => exact closed_ExtendedAttribute
  case ExtendedAttributeNoArgs => exact closed_ExtendedAttributeNoArgs
  case ExtendedAttributeArgList => exact closed_ExtendedAttributeArgList
  case ExtendedAttributeIdent => exact closed_ExtendedAttributeIdent
  case ExtendedAttributeString => exact closed_ExtendedAttributeString
  case ExtendedAttributeWildcard => exact closed_ExtendedAttributeWildcard
  case ExtendedAttributeIdentList => exact closed_ExtendedAttributeIdentList
  case ExtendedAttributeNamedArgList => exact closed_ExtendedAttributeNamedArgList
  case IdentifierList => exact closed_IdentifierList
  case Identifiers => exact closed_Identifiers

theorem derives_definitions {ls : List Str} (h : Derives .Definitions ls) : ∃ ds, definitions ds ls :=
  derives_M closed_all h

end Verif.WebIDL
