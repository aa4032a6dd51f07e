import Verif.Source.ConvRec

/-! # Members and definitions -/

namespace Verif.Source
open Nom

section
variable (s : Str)

theorem a_attrs : C (.path1 c!"Option" (.path0 c!"ExtendedAttributeList")) G.attrs attrsVal s := c_attrs (shorter_all s)

theorem a_type : C (.path0 c!"Type") G.type typeVal s := c_type (shorter_all s)

theorem a_returnType : C (.path0 c!"ReturnType") G.returnType returnTypeVal s := c_returnType (shorter_all s)

theorem a_attributedType : C (.path0 c!"AttributedType") G.attributedType attributedTypeVal s :=
  c_attributedType (shorter_all s)

theorem a_args : C (.path1 c!"Parenthesized" (.path0 c!"ArgumentList")) (G.parenthesized G.argumentList) argsVal s :=
  c_args (shorter_all s)

/-! ## `/repo/src/interface.rs` -/

theorem c_inheritance : C (.path0 c!"Inheritance") G.inheritance inheritanceVal s :=
  conv_struct find_Inheritance <| g_field (c_punct .colon _) fun _ _ _ => g_last (c_ident _) fun _ => rfl

theorem c_constMember : C (.path0 c!"ConstMember") G.constMember (constVal c!"ConstMember") s :=
  conv_struct find_ConstMember <| g_field (a_attrs _) fun _ _ _ => g_field (c_kw .const _) fun _ _ _ =>
    g_field (c_constType _) fun _ _ _ => g_field (c_ident _) fun _ _ _ => g_field (c_punct .assign _) fun _ _ _ =>
    g_field (c_constValue _) fun _ _ _ => g_field (c_punct .semiColon _) fun _ _ _ => g_ret rfl

theorem c_special : C (.path0 c!"Special") G.special specialVal s :=
  conv_enum find_Special <| g_variants (g_kwAs (k := .getter) rfl) <| g_variants (g_kwAs (k := .setter) rfl) <|
    g_variants (g_kwAs (k := .deleter) rfl) <| g_variants (g_kwAs (k := .legacyCaller) rfl) g_variantsNil

theorem c_stringifierOrInheritOrStatic :
    C (.path0 c!"StringifierOrInheritOrStatic") G.stringifierOrInheritOrStatic stringifierOrInheritOrStaticVal s :=
  conv_enum find_StringifierOrInheritOrStatic <| g_variants (g_kwAs (k := .stringifier) rfl) <|
    g_variants (g_kwAs (k := .inherit) rfl) <| g_variants (g_kwAs (k := .static) rfl) g_variantsNil

theorem c_stringifierOrStatic : C (.path0 c!"StringifierOrStatic") G.stringifierOrStatic stringifierOrStaticVal s :=
  conv_enum find_StringifierOrStatic <| g_variants (g_kwAs (k := .stringifier) rfl) <|
    g_variants (g_kwAs (k := .static) rfl) g_variantsNil

theorem c_attributeInterfaceMember :
    C (.path0 c!"AttributeInterfaceMember") G.attributeInterfaceMember attributeInterfaceMemberVal s :=
  conv_struct find_AttributeInterfaceMember <| g_field (a_attrs _) fun _ _ _ =>
    g_field (c_opt (c_stringifierOrInheritOrStatic _)) fun _ _ _ => g_field (c_optKw .readOnly _) fun _ _ _ =>
    g_field (c_kw .attribute _) fun _ _ _ => g_field (a_attributedType _) fun _ _ _ => g_field (c_ident _) fun _ _ _ =>
    g_field (c_punct .semiColon _) fun _ _ _ => g_ret rfl

theorem c_constructorInterfaceMember :
    C (.path0 c!"ConstructorInterfaceMember") G.constructorInterfaceMember constructorInterfaceMemberVal s :=
  conv_struct find_ConstructorInterfaceMember <| g_field (a_attrs _) fun _ _ _ => g_field (c_kw .constructor _) fun _ _ _ =>
    g_field (a_args _) fun _ _ _ => g_field (c_punct .semiColon _) fun _ _ _ => g_ret rfl

theorem c_operationInterfaceMember :
    C (.path0 c!"OperationInterfaceMember") G.operationInterfaceMember operationInterfaceMemberVal s :=
  conv_struct find_OperationInterfaceMember <| g_field (a_attrs _) fun _ _ _ =>
    g_field (c_opt (c_stringifierOrStatic _)) fun _ _ _ => g_field (c_opt (c_special _)) fun _ _ _ =>
    g_field (a_returnType _) fun _ _ _ => g_field (c_opt (c_ident _)) fun _ _ _ => g_field (a_args _) fun _ _ _ =>
    g_field (c_punct .semiColon _) fun _ _ _ => g_ret rfl

theorem c_attributedTypePair :
    C (.path3 c!"(,,)" (.path0 c!"AttributedType") (.path0 c!"Comma") (.path0 c!"AttributedType"))
      G.attributedTypePair attributedTypePairVal s :=
  g_triple (a_attributedType s) (fun r _ => c_punct .comma r) (fun r _ => a_attributedType r) fun _ _ _ => rfl

theorem c_iterableInterfaceMember :
    C (.path0 c!"IterableInterfaceMember") G.iterableInterfaceMember iterableInterfaceMemberVal s := by
  refine conv_enum find_IterableInterfaceMember <| g_variants ?_ <| g_variants ?_ g_variantsNil
  · exact conv_struct find_SingleTypedIterable <| g_field (a_attrs _) fun _ _ _ => g_field (c_kw .iterable _) fun _ _ _ =>
      g_field (c_generics fun r _ => a_attributedType r) fun _ _ _ => g_field (c_punct .semiColon _) fun _ _ _ => g_ret rfl
  · exact conv_struct find_DoubleTypedIterable <| g_field (a_attrs _) fun _ _ _ => g_field (c_kw .iterable _) fun _ _ _ =>
      g_field (c_generics fun r _ => c_attributedTypePair r) fun _ _ _ => g_field (c_punct .semiColon _) fun _ _ _ => g_ret rfl

theorem c_asyncIterableInterfaceMember :
    C (.path0 c!"AsyncIterableInterfaceMember") G.asyncIterableInterfaceMember asyncIterableInterfaceMemberVal s := by
  refine conv_enum find_AsyncIterableInterfaceMember <| g_variants ?_ <| g_variants ?_ g_variantsNil
  · exact conv_struct find_SingleTypedAsyncIterable <| g_field (a_attrs _) fun _ _ _ =>
      g_kwPair (k := .async) (k' := .iterable) (fun _ => rfl) fun _ _ =>
      g_field (c_generics fun r _ => a_attributedType r) fun _ _ _ => g_field (c_opt (a_args _)) fun _ _ _ =>
      g_field (c_punct .semiColon _) fun _ _ _ => g_ret rfl
  · exact conv_struct find_DoubleTypedAsyncIterable <| g_field (a_attrs _) fun _ _ _ =>
      g_kwPair (k := .async) (k' := .iterable) (fun _ => rfl) fun _ _ =>
      g_field (c_generics fun r _ => c_attributedTypePair r) fun _ _ _ => g_field (c_opt (a_args _)) fun _ _ _ =>
      g_field (c_punct .semiColon _) fun _ _ _ => g_ret rfl

theorem c_maplikeInterfaceMember :
    C (.path0 c!"MaplikeInterfaceMember") G.maplikeInterfaceMember maplikeInterfaceMemberVal s :=
  conv_struct find_MaplikeInterfaceMember <| g_field (a_attrs _) fun _ _ _ => g_field (c_optKw .readOnly _) fun _ _ _ =>
    g_field (c_kw .maplike _) fun _ _ _ => g_field (c_generics fun r _ => c_attributedTypePair r) fun _ _ _ =>
    g_field (c_punct .semiColon _) fun _ _ _ => g_ret rfl

theorem c_setlikeInterfaceMember :
    C (.path0 c!"SetlikeInterfaceMember") G.setlikeInterfaceMember setlikeInterfaceMemberVal s :=
  conv_struct find_SetlikeInterfaceMember <| g_field (a_attrs _) fun _ _ _ => g_field (c_optKw .readOnly _) fun _ _ _ =>
    g_field (c_kw .setlike _) fun _ _ _ => g_field (c_generics fun r _ => a_attributedType r) fun _ _ _ =>
    g_field (c_punct .semiColon _) fun _ _ _ => g_ret rfl

theorem c_stringifierMember : C (.path0 c!"StringifierMember") G.stringifierMember stringifierMemberVal s :=
  conv_struct find_StringifierMember <| g_field (a_attrs _) fun _ _ _ => g_field (c_kw .stringifier _) fun _ _ _ =>
    g_field (c_punct .semiColon _) fun _ _ _ => g_ret rfl

theorem c_interfaceMember : C (.path0 c!"InterfaceMember") G.interfaceMember interfaceMemberVal s :=
  conv_enum find_InterfaceMember <|
    g_variants (g_variant (c_constMember s) fun _ => rfl) <|
    g_variants (g_variant (c_attributeInterfaceMember s) fun _ => rfl) <|
    g_variants (g_variant (c_constructorInterfaceMember s) fun _ => rfl) <|
    g_variants (g_variant (c_operationInterfaceMember s) fun _ => rfl) <|
    g_variants (g_variant (c_iterableInterfaceMember s) fun _ => rfl) <|
    g_variants (g_variant (c_asyncIterableInterfaceMember s) fun _ => rfl) <|
    g_variants (g_variant (c_maplikeInterfaceMember s) fun _ => rfl) <|
    g_variants (g_variant (c_setlikeInterfaceMember s) fun _ => rfl) <|
    g_variants (g_variant (c_stringifierMember s) fun _ => rfl) g_variantsNil

theorem c_interfaceMembers :
    C (.path0 c!"InterfaceMembers") G.interfaceMembers (fun ms => .list (ms.map interfaceMemberVal)) s :=
  conv_alias find_InterfaceMembers <| c_vec fun r _ => c_interfaceMember r

/-! ## `/repo/src/mixin.rs` -/

theorem c_operationMixinMember : C (.path0 c!"OperationMixinMember") G.operationMixinMember operationMixinMemberVal s :=
  conv_struct find_OperationMixinMember <| g_field (a_attrs _) fun _ _ _ => g_field (c_optKw .stringifier _) fun _ _ _ =>
    g_field (a_returnType _) fun _ _ _ => g_field (c_opt (c_ident _)) fun _ _ _ => g_field (a_args _) fun _ _ _ =>
    g_field (c_punct .semiColon _) fun _ _ _ => g_ret rfl

theorem c_attributeMixinMember : C (.path0 c!"AttributeMixinMember") G.attributeMixinMember attributeMixinMemberVal s :=
  conv_struct find_AttributeMixinMember <| g_field (a_attrs _) fun _ _ _ => g_field (c_optKw .stringifier _) fun _ _ _ =>
    g_field (c_optKw .readOnly _) fun _ _ _ => g_field (c_kw .attribute _) fun _ _ _ =>
    g_field (a_attributedType _) fun _ _ _ => g_field (c_ident _) fun _ _ _ => g_field (c_punct .semiColon _) fun _ _ _ =>
    g_ret rfl

theorem c_mixinMember : C (.path0 c!"MixinMember") G.mixinMember mixinMemberVal s :=
  conv_enum find_MixinMember <|
    g_variants (g_variant (c_constMember s) fun _ => rfl) <|
    g_variants (g_variant (c_operationMixinMember s) fun _ => rfl) <|
    g_variants (g_variant (c_attributeMixinMember s) fun _ => rfl) <|
    g_variants (g_variant (c_stringifierMember s) fun _ => rfl) g_variantsNil

theorem c_mixinMembers : C (.path0 c!"MixinMembers") G.mixinMembers (fun ms => .list (ms.map mixinMemberVal)) s :=
  conv_alias find_MixinMembers <| c_vec fun r _ => c_mixinMember r

/-! ## `/repo/src/namespace.rs` -/

theorem c_constNamespaceMember : C (.path0 c!"ConstNamespaceMember") G.constMember (constVal c!"ConstNamespaceMember") s :=
  conv_struct find_ConstNamespaceMember <| g_field (a_attrs _) fun _ _ _ => g_field (c_kw .const _) fun _ _ _ =>
    g_field (c_constType _) fun _ _ _ => g_field (c_ident _) fun _ _ _ => g_field (c_punct .assign _) fun _ _ _ =>
    g_field (c_constValue _) fun _ _ _ => g_field (c_punct .semiColon _) fun _ _ _ => g_ret rfl

theorem c_operationNamespaceMember :
    C (.path0 c!"OperationNamespaceMember") G.operationNamespaceMember operationNamespaceMemberVal s :=
  conv_struct find_OperationNamespaceMember <| g_field (a_attrs _) fun _ _ _ => g_field (a_returnType _) fun _ _ _ =>
    g_field (c_opt (c_ident _)) fun _ _ _ => g_field (a_args _) fun _ _ _ => g_field (c_punct .semiColon _) fun _ _ _ =>
    g_ret rfl

theorem c_attributeNamespaceMember :
    C (.path0 c!"AttributeNamespaceMember") G.attributeNamespaceMember attributeNamespaceMemberVal s :=
  conv_struct find_AttributeNamespaceMember <| g_field (a_attrs _) fun _ _ _ => g_field (c_kw .readOnly _) fun _ _ _ =>
    g_field (c_kw .attribute _) fun _ _ _ => g_field (a_attributedType _) fun _ _ _ => g_field (c_ident _) fun _ _ _ =>
    g_field (c_punct .semiColon _) fun _ _ _ => g_ret rfl

theorem c_namespaceMember : C (.path0 c!"NamespaceMember") G.namespaceMember namespaceMemberVal s :=
  conv_enum find_NamespaceMember <|
    g_variants (g_variant (c_constNamespaceMember s) fun _ => rfl) <|
    g_variants (g_variant (c_operationNamespaceMember s) fun _ => rfl) <|
    g_variants (g_variant (c_attributeNamespaceMember s) fun _ => rfl) g_variantsNil

theorem c_namespaceMembers :
    C (.path0 c!"NamespaceMembers") G.namespaceMembers (fun ms => .list (ms.map namespaceMemberVal)) s :=
  conv_alias find_NamespaceMembers <| c_vec fun r _ => c_namespaceMember r

/-! ## `/repo/src/dictionary.rs` -/

theorem c_dictionaryMember : C (.path0 c!"DictionaryMember") G.dictionaryMember dictionaryMemberVal s :=
  conv_struct find_DictionaryMember <| g_field (a_attrs _) fun _ _ _ => g_field (c_optKw .required _) fun _ _ _ =>
    g_field (a_type _) fun _ _ _ => g_field (c_ident _) fun _ _ _ => g_field (c_opt (c_default _)) fun _ _ _ =>
    g_field (c_punct .semiColon _) fun _ _ _ => g_ret rfl

theorem c_dictionaryMembers :
    C (.path0 c!"DictionaryMembers") G.dictionaryMembers (fun ms => .list (ms.map dictionaryMemberVal)) s :=
  conv_alias find_DictionaryMembers <| c_vec fun r _ => c_dictionaryMember r

/-! ## `/repo/src/lib.rs` -/

theorem b_interface : C (.path1 c!"Braced" (.path0 c!"InterfaceMembers")) (G.braced G.interfaceMembers)
    (bodyVal interfaceMemberVal) s := c_brace fun r _ => c_interfaceMembers r

theorem b_mixin : C (.path1 c!"Braced" (.path0 c!"MixinMembers")) (G.braced G.mixinMembers)
    (bodyVal mixinMemberVal) s := c_brace fun r _ => c_mixinMembers r

theorem b_namespace : C (.path1 c!"Braced" (.path0 c!"NamespaceMembers")) (G.braced G.namespaceMembers)
    (bodyVal namespaceMemberVal) s := c_brace fun r _ => c_namespaceMembers r

theorem b_dictionary : C (.path1 c!"Braced" (.path0 c!"DictionaryMembers")) (G.braced G.dictionaryMembers)
    (bodyVal dictionaryMemberVal) s := c_brace fun r _ => c_dictionaryMembers r

theorem c_enumValueList : C (.path0 c!"EnumValueList") G.enumValueList
    (fun vs => punctuatedNonEmptyVal (punctVal .comma) (vs.map stringVal)) s :=
  conv_alias find_EnumValueList <| c_punctuatedNonEmpty (fun r _ => c_string r) fun r => c_punct .comma r

theorem c_definition : C (.path0 c!"Definition") G.definition definitionVal s := by
  refine conv_enum find_Definition <| g_variants ?_ <| g_variants ?_ <| g_variants ?_ <| g_variants ?_ <| g_variants ?_ <|
    g_variants ?_ <| g_variants ?_ <| g_variants ?_ <| g_variants ?_ <| g_variants ?_ <| g_variants ?_ <| g_variants ?_ <|
    g_variants ?_ <| g_variants ?_ g_variantsNil
  · exact conv_struct find_CallbackDefinition <| g_field (a_attrs _) fun _ _ _ => g_field (c_kw .callback _) fun _ _ _ =>
      g_field (c_ident _) fun _ _ _ => g_field (c_punct .assign _) fun _ _ _ => g_field (a_returnType _) fun _ _ _ =>
      g_field (a_args _) fun _ _ _ => g_field (c_punct .semiColon _) fun _ _ _ => g_ret rfl
  · exact conv_struct find_CallbackInterfaceDefinition <| g_field (a_attrs _) fun _ _ _ =>
      g_field (c_kw .callback _) fun _ _ _ => g_field (c_kw .interface _) fun _ _ _ => g_field (c_ident _) fun _ _ _ =>
      g_field (c_opt (c_inheritance _)) fun _ _ _ => g_field (b_interface _) fun _ _ _ =>
      g_field (c_punct .semiColon _) fun _ _ _ => g_ret rfl
  · exact conv_struct find_InterfaceDefinition <| g_field (a_attrs _) fun _ _ _ => g_field (c_kw .interface _) fun _ _ _ =>
      g_field (c_ident _) fun _ _ _ => g_field (c_opt (c_inheritance _)) fun _ _ _ => g_field (b_interface _) fun _ _ _ =>
      g_field (c_punct .semiColon _) fun _ _ _ => g_ret rfl
  · exact conv_struct find_InterfaceMixinDefinition <| g_field (a_attrs _) fun _ _ _ =>
      g_field (c_kw .interface _) fun _ _ _ => g_field (c_kw .mixin _) fun _ _ _ => g_field (c_ident _) fun _ _ _ =>
      g_field (b_mixin _) fun _ _ _ => g_field (c_punct .semiColon _) fun _ _ _ => g_ret rfl
  · exact conv_struct find_NamespaceDefinition <| g_field (a_attrs _) fun _ _ _ => g_field (c_kw .namespace _) fun _ _ _ =>
      g_field (c_ident _) fun _ _ _ => g_field (b_namespace _) fun _ _ _ => g_field (c_punct .semiColon _) fun _ _ _ =>
      g_ret rfl
  · exact conv_struct find_DictionaryDefinition <| g_field (a_attrs _) fun _ _ _ =>
      g_field (c_kw .dictionary _) fun _ _ _ => g_field (c_ident _) fun _ _ _ =>
      g_field (c_opt (c_inheritance _)) fun _ _ _ => g_field (b_dictionary _) fun _ _ _ =>
      g_field (c_punct .semiColon _) fun _ _ _ => g_ret rfl
  · exact conv_struct find_PartialInterfaceDefinition <| g_field (a_attrs _) fun _ _ _ =>
      g_field (c_kw .partial _) fun _ _ _ => g_field (c_kw .interface _) fun _ _ _ => g_field (c_ident _) fun _ _ _ =>
      g_field (b_interface _) fun _ _ _ => g_field (c_punct .semiColon _) fun _ _ _ => g_ret rfl
  · exact conv_struct find_PartialInterfaceMixinDefinition <| g_field (a_attrs _) fun _ _ _ =>
      g_field (c_kw .partial _) fun _ _ _ => g_field (c_kw .interface _) fun _ _ _ => g_field (c_kw .mixin _) fun _ _ _ =>
      g_field (c_ident _) fun _ _ _ => g_field (b_mixin _) fun _ _ _ => g_field (c_punct .semiColon _) fun _ _ _ => g_ret rfl
  · exact conv_struct find_PartialDictionaryDefinition <| g_field (a_attrs _) fun _ _ _ =>
      g_field (c_kw .partial _) fun _ _ _ => g_field (c_kw .dictionary _) fun _ _ _ => g_field (c_ident _) fun _ _ _ =>
      g_field (b_dictionary _) fun _ _ _ => g_field (c_punct .semiColon _) fun _ _ _ => g_ret rfl
  · exact conv_struct find_PartialNamespaceDefinition <| g_field (a_attrs _) fun _ _ _ =>
      g_field (c_kw .partial _) fun _ _ _ => g_field (c_kw .namespace _) fun _ _ _ => g_field (c_ident _) fun _ _ _ =>
      g_field (b_namespace _) fun _ _ _ => g_field (c_punct .semiColon _) fun _ _ _ => g_ret rfl
  · exact conv_struct find_EnumDefinition <| g_field (a_attrs _) fun _ _ _ => g_field (c_kw .enum _) fun _ _ _ =>
      g_field (c_ident _) fun _ _ _ => g_field (c_brace fun r _ => c_enumValueList r) fun _ _ _ =>
      g_field (c_punct .semiColon _) fun _ _ _ => g_ret rfl
  · exact conv_struct find_TypedefDefinition <| g_field (a_attrs _) fun _ _ _ => g_field (c_kw .typedef _) fun _ _ _ =>
      g_field (a_attributedType _) fun _ _ _ => g_field (c_ident _) fun _ _ _ => g_field (c_punct .semiColon _) fun _ _ _ =>
      g_ret rfl
  · exact conv_struct find_IncludesStatementDefinition <| g_field (a_attrs _) fun _ _ _ => g_field (c_ident _) fun _ _ _ =>
      g_field (c_kw .includes _) fun _ _ _ => g_field (c_ident _) fun _ _ _ => g_field (c_punct .semiColon _) fun _ _ _ =>
      g_ret rfl
  · exact conv_struct find_ImplementsDefinition <| g_field (a_attrs _) fun _ _ _ => g_field (c_ident _) fun _ _ _ =>
      g_field (c_kw .implements _) fun _ _ _ => g_field (c_ident _) fun _ _ _ => g_field (c_punct .semiColon _) fun _ _ _ =>
      g_ret rfl

theorem c_definitions : C (.path0 c!"Definitions") G.definitions (fun ds => .list (ds.map definitionVal)) s :=
  conv_alias find_Definitions <| c_vec fun r _ => c_definition r

end

end Verif.Source
