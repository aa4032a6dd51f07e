import Verif.Spec.Map
import Verif.Proof.Print

/-! # Changing types and names keeps an AST well-formed -/

namespace Verif
open Spec

variable {f : Ty → Ty} {g : Str → Str}

section
variable (hf : ∀ t, WfType t → WfType (f t)) (hg : ∀ i, WfName i → WfName (g i))

include hf hg

mutual

theorem map_type : ∀ t, WfType t → WfType (mapType f g t)
  | .single t, h => by
    simp only [mapType]
    exact hf _ (by simp only [WfType] at h ⊢; exact map_singleType t h)
  | .union ms q, h => by
    simp only [mapType]
    exact hf _ (by simp only [WfType] at h ⊢; exact map_unionMembers ms h)

theorem map_singleType : ∀ t, WfSingleType t → WfSingleType (mapSingleType f g t)
  | .any, h => by simp only [mapSingleType]; exact h
  | .nonAny t, h => by
    simp only [mapSingleType, WfSingleType] at h ⊢
    exact map_nonAnyType t h

theorem map_nonAnyType : ∀ t, WfNonAnyType t → WfNonAnyType (mapNonAnyType f g t)
  | .promise r, h => by simp only [mapNonAnyType, WfNonAnyType] at h ⊢; exact map_returnType r h
  | .integer t q, h => by simp only [mapNonAnyType]; exact h
  | .floatingPoint t q, h => by simp only [mapNonAnyType]; exact h
  | .builtin b q, h => by simp only [mapNonAnyType]; exact h
  | .sequence t q, h => by simp only [mapNonAnyType, WfNonAnyType] at h ⊢; exact map_type t h
  | .frozenArray t q, h => by simp only [mapNonAnyType, WfNonAnyType] at h ⊢; exact map_type t h
  | .record k v q, h => by
    simp only [mapNonAnyType, WfNonAnyType] at h ⊢
    exact ⟨map_recordKeyType k h.1, map_type v h.2⟩
  | .identifier i q, h => by simp only [mapNonAnyType, WfNonAnyType] at h ⊢; exact hg i h

theorem map_recordKeyType : ∀ t, WfRecordKeyType t → WfRecordKeyType (mapRecordKeyType f g t)
  | .byte, h => by simp only [mapRecordKeyType]; exact h
  | .dom, h => by simp only [mapRecordKeyType]; exact h
  | .usv, h => by simp only [mapRecordKeyType]; exact h
  | .nonAny t, h => by
    simp only [mapRecordKeyType, WfRecordKeyType] at h ⊢
    refine ⟨map_nonAnyType t h.1, ?_⟩
    have := h.2
    cases t <;> simp only [mapNonAnyType] <;> first | exact this | (simp [IsStringType])

theorem map_unionMember : ∀ t, WfUnionMember t → WfUnionMember (mapUnionMember f g t)
  | .single as t, h => by
    simp only [mapUnionMember, WfUnionMember] at h ⊢
    exact ⟨map_attributes as h.1, map_nonAnyType t h.2⟩
  | .union ms q, h => by simp only [mapUnionMember, WfUnionMember] at h ⊢; exact map_unionMembers ms h

theorem map_unionMembers : ∀ t, WfUnionMembers t → WfUnionMembers (mapUnionMembers f g t)
  | [], h => by simp only [mapUnionMembers]; exact h
  | m :: ms, h => by
    simp only [mapUnionMembers, WfUnionMembers] at h ⊢
    exact ⟨map_unionMember m h.1, map_unionMembers ms h.2⟩

theorem map_returnType : ∀ t, WfReturnType t → WfReturnType (mapReturnType f g t)
  | .undefined, h => by simp only [mapReturnType]; exact h
  | .type t, h => by simp only [mapReturnType, WfReturnType] at h ⊢; exact map_type t h

theorem map_extAttr : ∀ t, WfExtAttr t → WfExtAttr (mapExtAttr f g t)
  | .argList i args, h => by
    simp only [mapExtAttr, WfExtAttr] at h ⊢
    exact ⟨hg _ h.1, map_arguments args h.2⟩
  | .namedArgList l r args, h => by
    simp only [mapExtAttr, WfExtAttr] at h ⊢
    exact ⟨hg _ h.1, hg _ h.2.1, map_arguments args h.2.2⟩
  | .identList i is, h => by
    simp only [mapExtAttr, WfExtAttr] at h ⊢
    refine ⟨hg _ h.1, fun j hj => ?_⟩
    obtain ⟨k, hk, rfl⟩ := List.mem_map.1 hj
    exact hg _ (h.2 k hk)
  | .ident l r, h => by
    simp only [mapExtAttr, WfExtAttr] at h ⊢
    refine ⟨hg _ h.1, ?_⟩
    cases r with
    | identifier i => exact hg _ h.2
    | string v => exact h.2
  | .wildcard l, h => by simp only [mapExtAttr, WfExtAttr] at h ⊢; exact hg _ h
  | .noArgs i, h => by simp only [mapExtAttr, WfExtAttr] at h ⊢; exact hg _ h

theorem map_extAttrs : ∀ t, WfExtAttrs t → WfExtAttrs (mapExtAttrs f g t)
  | [], h => by simp only [mapExtAttrs]; exact h
  | m :: ms, h => by
    simp only [mapExtAttrs, WfExtAttrs] at h ⊢
    exact ⟨map_extAttr m h.1, map_extAttrs ms h.2⟩

theorem map_attributes : ∀ t, WfAttributes t → WfAttributes (mapAttributes f g t)
  | none, h => by simp only [mapAttributes]; exact h
  | some as, h => by simp only [mapAttributes, WfAttributes] at h ⊢; exact map_extAttrs as h

theorem map_attributedType : ∀ t, WfAttributedType t → WfAttributedType (mapAttributedType f g t)
  | .mk as t, h => by
    simp only [mapAttributedType, WfAttributedType] at h ⊢
    exact ⟨map_attributes as h.1, map_type t h.2⟩

theorem map_argument : ∀ t, WfArgument t → WfArgument (mapArgument f g t)
  | .single as o t i d, h => by
    simp only [mapArgument, WfArgument] at h ⊢
    obtain ⟨h1, h2, h3, h4, h5⟩ := h
    refine ⟨map_attributes as h1, map_attributedType t h2, hg _ h3, h4, fun ho => ⟨(h5 ho).1, fun has => ?_⟩⟩
    have h6 := (h5 ho).2
    cases as with
    | some as => simp [mapAttributes] at has
    | none =>
      have h6 := h6 rfl
      match t, h6 with
      | .mk none t, _ => simp only [mapAttributedType, mapAttributes]; rfl
  | .variadic as t i, h => by
    simp only [mapArgument, WfArgument] at h ⊢
    exact ⟨map_attributes as h.1, map_type t h.2.1, hg _ h.2.2⟩

theorem map_arguments : ∀ t, WfArguments t → WfArguments (mapArguments f g t)
  | [], h => by simp only [mapArguments]; exact h
  | m :: ms, h => by
    simp only [mapArguments, WfArguments] at h ⊢
    exact ⟨map_argument m h.1, map_arguments ms h.2⟩

end

theorem map_pair {p : AttributedType × AttributedType} (h : WfTypePair p) : WfTypePair (mapPair f g p) :=
  ⟨map_attributedType hf hg _ h.1, map_attributedType hf hg _ h.2⟩

theorem map_optArguments {args : Option (List Argument)} (h : WfOptArguments args) :
    WfOptArguments (args.map (mapArguments f g)) := by
  cases args with
  | none => exact h
  | some as => exact map_arguments hf hg as h

omit hf in
theorem map_optName {i : Option Str} (h : WfOptName i) : WfOptName (i.map g) := by
  cases i with
  | none => exact h
  | some i => exact hg i h

theorem map_const {m : ConstMember} (h : WfConst m) : WfConst (mapConst f g m) := by
  refine ⟨map_attributes hf hg _ h.1, ?_, hg _ h.2.2.1, h.2.2.2⟩
  have := h.2.1
  simp only [mapConst]
  cases hc : m.constType <;> simp only [hc, mapConstType, WfConstType] at this ⊢
  exact hg _ this

theorem map_operation {as : Attrs} {r : ReturnType} {i : Option Str} {args : List Argument} (h : WfOperation as r i args) :
    WfOperation (mapAttributes f g as) (mapReturnType f g r) (i.map g) (mapArguments f g args) :=
  ⟨map_attributes hf hg _ h.1, map_returnType hf hg _ h.2.1, map_optName hg h.2.2.1, map_arguments hf hg _ h.2.2.2⟩

theorem map_attribute {as : Attrs} {t : AttributedType} {i : Str} (h : WfAttribute as t i) :
    WfAttribute (mapAttributes f g as) (mapAttributedType f g t) (g i) :=
  ⟨map_attributes hf hg _ h.1, map_attributedType hf hg _ h.2.1, hg _ h.2.2⟩

theorem map_interfaceMember (m : InterfaceMember) (h : WfInterfaceMember m) : WfInterfaceMember (mapInterfaceMember f g m) := by
  match m, h with
  | .const m, h => exact map_const hf hg h
  | .attribute m, h => exact map_attribute hf hg h
  | .constructor m, h => exact ⟨map_attributes hf hg _ h.1, map_arguments hf hg _ h.2⟩
  | .operation m, h => exact map_operation hf hg h
  | .iterable (.single as t), h => exact ⟨map_attributes hf hg _ h.1, map_attributedType hf hg _ h.2⟩
  | .iterable (.double as t), h => exact ⟨map_attributes hf hg _ h.1, map_pair hf hg h.2⟩
  | .asyncIterable (.single as t args), h =>
    exact ⟨map_attributes hf hg _ h.1, map_attributedType hf hg _ h.2.1, map_optArguments hf hg h.2.2⟩
  | .asyncIterable (.double as t args), h =>
    exact ⟨map_attributes hf hg _ h.1, map_pair hf hg h.2.1, map_optArguments hf hg h.2.2⟩
  | .maplike m, h => exact ⟨map_attributes hf hg _ h.1, map_pair hf hg h.2⟩
  | .setlike m, h => exact ⟨map_attributes hf hg _ h.1, map_attributedType hf hg _ h.2⟩
  | .stringifier m, h => exact map_attributes hf hg _ h

theorem map_mixinMember (m : MixinMember) (h : WfMixinMember m) : WfMixinMember (mapMixinMember f g m) := by
  match m, h with
  | .const m, h => exact map_const hf hg h
  | .attribute m, h => exact map_attribute hf hg h
  | .operation m, h => exact map_operation hf hg h
  | .stringifier m, h => exact map_attributes hf hg _ h

theorem map_namespaceMember (m : NamespaceMember) (h : WfNamespaceMember m) : WfNamespaceMember (mapNamespaceMember f g m) := by
  match m, h with
  | .const m, h => exact map_const hf hg h
  | .attribute m, h => exact map_attribute hf hg h
  | .operation m, h => exact map_operation hf hg h

theorem map_dictionaryMember (m : DictionaryMember) (h : WfDictionaryMember m) :
    WfDictionaryMember (mapDictionaryMember f g m) :=
  ⟨map_attributes hf hg _ h.1, map_type hf hg _ h.2.1, hg _ h.2.2.1, h.2.2.2⟩

theorem map_body {α : Type} {W : α → Prop} {k : α → α} (hk : ∀ m, W m → W (k m)) {as : Attrs} {i : Str} {ms : List α}
    (h : WfBody W as i ms) : WfBody W (mapAttributes f g as) (g i) (ms.map k) := by
  refine ⟨map_attributes hf hg _ h.1, hg _ h.2.1, fun m hm => ?_⟩
  obtain ⟨m', hm', rfl⟩ := List.mem_map.1 hm
  exact hk _ (h.2.2 _ hm')

theorem map_definition (d : Definition) (h : WfDefinition d) : WfDefinition (mapDefinition f g d) := by
  match d, h with
  | .callback as i r args, h =>
    exact ⟨map_attributes hf hg _ h.1, hg _ h.2.1, map_returnType hf hg _ h.2.2.1, map_arguments hf hg _ h.2.2.2⟩
  | .callbackInterface as i inh ms, h => exact ⟨map_body hf hg (map_interfaceMember hf hg) h.1, map_optName hg h.2⟩
  | .interface as i inh ms, h => exact ⟨map_body hf hg (map_interfaceMember hf hg) h.1, map_optName hg h.2⟩
  | .interfaceMixin as i ms, h => exact map_body hf hg (map_mixinMember hf hg) h
  | .namespace as i ms, h => exact map_body hf hg (map_namespaceMember hf hg) h
  | .dictionary as i inh ms, h => exact ⟨map_body hf hg (map_dictionaryMember hf hg) h.1, map_optName hg h.2⟩
  | .partialInterface as i ms, h => exact map_body hf hg (map_interfaceMember hf hg) h
  | .partialInterfaceMixin as i ms, h => exact map_body hf hg (map_mixinMember hf hg) h
  | .partialDictionary as i ms, h => exact map_body hf hg (map_dictionaryMember hf hg) h
  | .partialNamespace as i ms, h => exact map_body hf hg (map_namespaceMember hf hg) h
  | .enum as i vs, h => exact ⟨⟨map_attributes hf hg _ h.1.1, hg _ h.1.2.1, h.1.2.2⟩, h.2⟩
  | .typedef as t i, h => exact map_attribute hf hg h
  | .includesStatement as l r, h => exact ⟨map_attributes hf hg _ h.1, hg _ h.2.1, hg _ h.2.2⟩
  | .implements as l r, h => exact ⟨map_attributes hf hg _ h.1, hg _ h.2.1, hg _ h.2.2⟩

theorem map_wf {ds : List Definition} (h : Wf ds) : Wf (ds.map (mapDefinition f g)) := by
  intro d hd
  obtain ⟨d', hd', rfl⟩ := List.mem_map.1 hd
  exact map_definition hf hg _ (h _ hd')

end

/-! ## Nothing changes if no name does -/

section
variable (hg : ∀ i, WfName i → g i = i)

include hg

mutual

theorem fix_type : ∀ t, WfType t → mapType id g t = t
  | .single t, h => by simp only [mapType, WfType, id] at h ⊢; rw [fix_singleType t h]
  | .union ms q, h => by simp only [mapType, WfType, id] at h ⊢; rw [fix_unionMembers ms h]

theorem fix_singleType : ∀ t, WfSingleType t → mapSingleType id g t = t
  | .any, h => by simp only [mapSingleType]
  | .nonAny t, h => by simp only [mapSingleType, WfSingleType] at h ⊢; rw [fix_nonAnyType t h]

theorem fix_nonAnyType : ∀ t, WfNonAnyType t → mapNonAnyType id g t = t
  | .promise r, h => by simp only [mapNonAnyType, WfNonAnyType] at h ⊢; rw [fix_returnType r h]
  | .integer t q, h => by simp only [mapNonAnyType]
  | .floatingPoint t q, h => by simp only [mapNonAnyType]
  | .builtin b q, h => by simp only [mapNonAnyType]
  | .sequence t q, h => by simp only [mapNonAnyType, WfNonAnyType] at h ⊢; rw [fix_type t h]
  | .frozenArray t q, h => by simp only [mapNonAnyType, WfNonAnyType] at h ⊢; rw [fix_type t h]
  | .record k v q, h => by
    simp only [mapNonAnyType, WfNonAnyType] at h ⊢
    rw [fix_recordKeyType k h.1, fix_type v h.2]
  | .identifier i q, h => by simp only [mapNonAnyType, WfNonAnyType] at h ⊢; rw [hg i h]

theorem fix_recordKeyType : ∀ t, WfRecordKeyType t → mapRecordKeyType id g t = t
  | .byte, h => by simp only [mapRecordKeyType]
  | .dom, h => by simp only [mapRecordKeyType]
  | .usv, h => by simp only [mapRecordKeyType]
  | .nonAny t, h => by simp only [mapRecordKeyType, WfRecordKeyType] at h ⊢; rw [fix_nonAnyType t h.1]

theorem fix_unionMember : ∀ t, WfUnionMember t → mapUnionMember id g t = t
  | .single as t, h => by
    simp only [mapUnionMember, WfUnionMember] at h ⊢
    rw [fix_attributes as h.1, fix_nonAnyType t h.2]
  | .union ms q, h => by simp only [mapUnionMember, WfUnionMember] at h ⊢; rw [fix_unionMembers ms h]

theorem fix_unionMembers : ∀ t, WfUnionMembers t → mapUnionMembers id g t = t
  | [], h => by simp only [mapUnionMembers]
  | m :: ms, h => by
    simp only [mapUnionMembers, WfUnionMembers] at h ⊢
    rw [fix_unionMember m h.1, fix_unionMembers ms h.2]

theorem fix_returnType : ∀ t, WfReturnType t → mapReturnType id g t = t
  | .undefined, h => by simp only [mapReturnType]
  | .type t, h => by simp only [mapReturnType, WfReturnType] at h ⊢; rw [fix_type t h]

theorem fix_extAttr : ∀ t, WfExtAttr t → mapExtAttr id g t = t
  | .argList i args, h => by
    simp only [mapExtAttr, WfExtAttr] at h ⊢
    rw [hg _ h.1, fix_arguments args h.2]
  | .namedArgList l r args, h => by
    simp only [mapExtAttr, WfExtAttr] at h ⊢
    rw [hg _ h.1, hg _ h.2.1, fix_arguments args h.2.2]
  | .identList i is, h => by
    simp only [mapExtAttr, WfExtAttr] at h ⊢
    have : is.map g = is := by
      conv => rhs; rw [← List.map_id is]
      exact List.map_congr_left fun j hj => hg j (h.2 j hj)
    rw [hg _ h.1, this]
  | .ident l r, h => by
    simp only [mapExtAttr, WfExtAttr] at h ⊢
    rw [hg _ h.1]
    cases r with
    | identifier i => simp only [mapIdentifierOrString]; rw [hg _ h.2]
    | string v => rfl
  | .wildcard l, h => by simp only [mapExtAttr, WfExtAttr] at h ⊢; rw [hg _ h]
  | .noArgs i, h => by simp only [mapExtAttr, WfExtAttr] at h ⊢; rw [hg _ h]

theorem fix_extAttrs : ∀ t, WfExtAttrs t → mapExtAttrs id g t = t
  | [], h => by simp only [mapExtAttrs]
  | m :: ms, h => by
    simp only [mapExtAttrs, WfExtAttrs] at h ⊢
    rw [fix_extAttr m h.1, fix_extAttrs ms h.2]

theorem fix_attributes : ∀ t, WfAttributes t → mapAttributes id g t = t
  | none, h => by simp only [mapAttributes]
  | some as, h => by simp only [mapAttributes, WfAttributes] at h ⊢; rw [fix_extAttrs as h]

theorem fix_attributedType : ∀ t, WfAttributedType t → mapAttributedType id g t = t
  | .mk as t, h => by
    simp only [mapAttributedType, WfAttributedType] at h ⊢
    rw [fix_attributes as h.1, fix_type t h.2]

theorem fix_argument : ∀ t, WfArgument t → mapArgument id g t = t
  | .single as o t i d, h => by
    simp only [mapArgument, WfArgument] at h ⊢
    rw [fix_attributes as h.1, fix_attributedType t h.2.1, hg _ h.2.2.1]
  | .variadic as t i, h => by
    simp only [mapArgument, WfArgument] at h ⊢
    rw [fix_attributes as h.1, fix_type t h.2.1, hg _ h.2.2]

theorem fix_arguments : ∀ t, WfArguments t → mapArguments id g t = t
  | [], h => by simp only [mapArguments]
  | m :: ms, h => by
    simp only [mapArguments, WfArguments] at h ⊢
    rw [fix_argument m h.1, fix_arguments ms h.2]

end

theorem fix_pair {p : AttributedType × AttributedType} (h : WfTypePair p) : mapPair id g p = p := by
  simp only [mapPair, fix_attributedType hg _ h.1, fix_attributedType hg _ h.2]

theorem fix_optArguments {args : Option (List Argument)} (h : WfOptArguments args) : args.map (mapArguments id g) = args := by
  cases args with
  | none => rfl
  | some as => simp only [Option.map_some]; rw [fix_arguments hg as h]

theorem fix_optName {i : Option Str} (h : WfOptName i) : i.map g = i := by
  cases i with
  | none => rfl
  | some i => simp only [Option.map_some]; rw [hg i h]

theorem fix_const {m : ConstMember} (h : WfConst m) : mapConst id g m = m := by
  have : mapConstType g m.constType = m.constType := by
    have := h.2.1
    cases hc : m.constType <;> simp only [hc, mapConstType, WfConstType] at this ⊢
    rw [hg _ this]
  cases m
  simp only [mapConst] at this ⊢
  rw [fix_attributes hg _ h.1, hg _ h.2.2.1, this]

theorem fix_interfaceMember (m : InterfaceMember) (h : WfInterfaceMember m) : mapInterfaceMember id g m = m := by
  match m, h with
  | .const m, h => simp only [mapInterfaceMember]; rw [fix_const hg h]
  | .attribute m, h => simp only [mapInterfaceMember]; rw [fix_attributes hg _ h.1, fix_attributedType hg _ h.2.1, hg _ h.2.2]
  | .constructor m, h => simp only [mapInterfaceMember]; rw [fix_attributes hg _ h.1, fix_arguments hg _ h.2]
  | .operation m, h =>
    simp only [mapInterfaceMember]
    rw [fix_attributes hg _ h.1, fix_returnType hg _ h.2.1, fix_optName hg h.2.2.1, fix_arguments hg _ h.2.2.2]
  | .iterable (.single as t), h =>
    simp only [mapInterfaceMember]; rw [fix_attributes hg _ h.1, fix_attributedType hg _ h.2]
  | .iterable (.double as t), h => simp only [mapInterfaceMember]; rw [fix_attributes hg _ h.1, fix_pair hg h.2]
  | .asyncIterable (.single as t args), h =>
    simp only [mapInterfaceMember]
    rw [fix_attributes hg _ h.1, fix_attributedType hg _ h.2.1, fix_optArguments hg h.2.2]
  | .asyncIterable (.double as t args), h =>
    simp only [mapInterfaceMember]; rw [fix_attributes hg _ h.1, fix_pair hg h.2.1, fix_optArguments hg h.2.2]
  | .maplike m, h => simp only [mapInterfaceMember]; rw [fix_attributes hg _ h.1, fix_pair hg h.2]
  | .setlike m, h => simp only [mapInterfaceMember]; rw [fix_attributes hg _ h.1, fix_attributedType hg _ h.2]
  | .stringifier m, h => simp only [mapInterfaceMember, mapStringifier]; rw [fix_attributes hg _ h]

theorem fix_mixinMember (m : MixinMember) (h : WfMixinMember m) : mapMixinMember id g m = m := by
  match m, h with
  | .const m, h => simp only [mapMixinMember]; rw [fix_const hg h]
  | .attribute m, h => simp only [mapMixinMember]; rw [fix_attributes hg _ h.1, fix_attributedType hg _ h.2.1, hg _ h.2.2]
  | .operation m, h =>
    simp only [mapMixinMember]
    rw [fix_attributes hg _ h.1, fix_returnType hg _ h.2.1, fix_optName hg h.2.2.1, fix_arguments hg _ h.2.2.2]
  | .stringifier m, h => simp only [mapMixinMember, mapStringifier]; rw [fix_attributes hg _ h]

theorem fix_namespaceMember (m : NamespaceMember) (h : WfNamespaceMember m) : mapNamespaceMember id g m = m := by
  match m, h with
  | .const m, h => simp only [mapNamespaceMember]; rw [fix_const hg h]
  | .attribute m, h =>
    simp only [mapNamespaceMember]; rw [fix_attributes hg _ h.1, fix_attributedType hg _ h.2.1, hg _ h.2.2]
  | .operation m, h =>
    simp only [mapNamespaceMember]
    rw [fix_attributes hg _ h.1, fix_returnType hg _ h.2.1, fix_optName hg h.2.2.1, fix_arguments hg _ h.2.2.2]

theorem fix_dictionaryMember (m : DictionaryMember) (h : WfDictionaryMember m) : mapDictionaryMember id g m = m := by
  simp only [mapDictionaryMember]
  rw [fix_attributes hg _ h.1, fix_type hg _ h.2.1, hg _ h.2.2.1]

omit hg in
theorem fix_map {α : Type} {W : α → Prop} {k : α → α} (hk : ∀ m, W m → k m = m) {ms : List α} (h : ∀ m ∈ ms, W m) :
    ms.map k = ms := by
  conv => rhs; rw [← List.map_id ms]
  exact List.map_congr_left fun m hm => hk m (h m hm)

theorem fix_definition (d : Definition) (h : WfDefinition d) : mapDefinition id g d = d := by
  match d, h with
  | .callback as i r args, h =>
    simp only [mapDefinition]
    rw [fix_attributes hg _ h.1, hg _ h.2.1, fix_returnType hg _ h.2.2.1, fix_arguments hg _ h.2.2.2]
  | .callbackInterface as i inh ms, h =>
    simp only [mapDefinition]
    rw [fix_attributes hg _ h.1.1, hg _ h.1.2.1, fix_optName hg h.2, fix_map (fix_interfaceMember hg) h.1.2.2]
  | .interface as i inh ms, h =>
    simp only [mapDefinition]
    rw [fix_attributes hg _ h.1.1, hg _ h.1.2.1, fix_optName hg h.2, fix_map (fix_interfaceMember hg) h.1.2.2]
  | .interfaceMixin as i ms, h =>
    simp only [mapDefinition]; rw [fix_attributes hg _ h.1, hg _ h.2.1, fix_map (fix_mixinMember hg) h.2.2]
  | .namespace as i ms, h =>
    simp only [mapDefinition]; rw [fix_attributes hg _ h.1, hg _ h.2.1, fix_map (fix_namespaceMember hg) h.2.2]
  | .dictionary as i inh ms, h =>
    simp only [mapDefinition]
    rw [fix_attributes hg _ h.1.1, hg _ h.1.2.1, fix_optName hg h.2, fix_map (fix_dictionaryMember hg) h.1.2.2]
  | .partialInterface as i ms, h =>
    simp only [mapDefinition]; rw [fix_attributes hg _ h.1, hg _ h.2.1, fix_map (fix_interfaceMember hg) h.2.2]
  | .partialInterfaceMixin as i ms, h =>
    simp only [mapDefinition]; rw [fix_attributes hg _ h.1, hg _ h.2.1, fix_map (fix_mixinMember hg) h.2.2]
  | .partialDictionary as i ms, h =>
    simp only [mapDefinition]; rw [fix_attributes hg _ h.1, hg _ h.2.1, fix_map (fix_dictionaryMember hg) h.2.2]
  | .partialNamespace as i ms, h =>
    simp only [mapDefinition]; rw [fix_attributes hg _ h.1, hg _ h.2.1, fix_map (fix_namespaceMember hg) h.2.2]
  | .enum as i vs, h => simp only [mapDefinition]; rw [fix_attributes hg _ h.1.1, hg _ h.1.2.1]
  | .typedef as t i, h =>
    simp only [mapDefinition]; rw [fix_attributes hg _ h.1, fix_attributedType hg _ h.2.1, hg _ h.2.2]
  | .includesStatement as l r, h => simp only [mapDefinition]; rw [fix_attributes hg _ h.1, hg _ h.2.1, hg _ h.2.2]
  | .implements as l r, h => simp only [mapDefinition]; rw [fix_attributes hg _ h.1, hg _ h.2.1, hg _ h.2.2]

theorem fix_wf {ds : List Definition} (h : Wf ds) : rename g ds = ds := fix_map (fix_definition hg) h

end

end Verif
