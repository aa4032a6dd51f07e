import Verif.Source.ConvDef

/-! # The structs inside the variants of enums -/

namespace Verif.Source
open Nom

section
variable (s : Str)

theorem c_singleTypedIterable : C (.path0 c!"SingleTypedIterable") G.singleTypedIterable (fun a => (iterableInterfaceMemberVal a).payload) s :=
  conv_struct find_SingleTypedIterable <| g_field (a_attrs _) fun _ _ _ => g_field (c_kw .iterable _) fun _ _ _ =>
    g_field (c_generics fun r _ => a_attributedType r) fun _ _ _ => g_field (c_punct .semiColon _) fun _ _ _ => g_ret rfl

theorem c_doubleTypedIterable : C (.path0 c!"DoubleTypedIterable") G.doubleTypedIterable (fun a => (iterableInterfaceMemberVal a).payload) s :=
  conv_struct find_DoubleTypedIterable <| g_field (a_attrs _) fun _ _ _ => g_field (c_kw .iterable _) fun _ _ _ =>
    g_field (c_generics fun r _ => c_attributedTypePair r) fun _ _ _ => g_field (c_punct .semiColon _) fun _ _ _ => g_ret rfl

theorem c_singleTypedAsyncIterable : C (.path0 c!"SingleTypedAsyncIterable") G.singleTypedAsyncIterable (fun a => (asyncIterableInterfaceMemberVal a).payload) s :=
  conv_struct find_SingleTypedAsyncIterable <| g_field (a_attrs _) fun _ _ _ =>
    g_kwPair (k := .async) (k' := .iterable) (fun _ => rfl) fun _ _ =>
    g_field (c_generics fun r _ => a_attributedType r) fun _ _ _ => g_field (c_opt (a_args _)) fun _ _ _ =>
    g_field (c_punct .semiColon _) fun _ _ _ => g_ret rfl

theorem c_doubleTypedAsyncIterable : C (.path0 c!"DoubleTypedAsyncIterable") G.doubleTypedAsyncIterable (fun a => (asyncIterableInterfaceMemberVal a).payload) s :=
  conv_struct find_DoubleTypedAsyncIterable <| g_field (a_attrs _) fun _ _ _ =>
    g_kwPair (k := .async) (k' := .iterable) (fun _ => rfl) fun _ _ =>
    g_field (c_generics fun r _ => c_attributedTypePair r) fun _ _ _ => g_field (c_opt (a_args _)) fun _ _ _ =>
    g_field (c_punct .semiColon _) fun _ _ _ => g_ret rfl

theorem c_callbackDefinition : C (.path0 c!"CallbackDefinition") G.callbackDefinition (fun a => (definitionVal a).payload) s :=
  conv_struct find_CallbackDefinition <| g_field (a_attrs _) fun _ _ _ => g_field (c_kw .callback _) fun _ _ _ =>
    g_field (c_ident _) fun _ _ _ => g_field (c_punct .assign _) fun _ _ _ => g_field (a_returnType _) fun _ _ _ =>
    g_field (a_args _) fun _ _ _ => g_field (c_punct .semiColon _) fun _ _ _ => g_ret rfl

theorem c_callbackInterfaceDefinition : C (.path0 c!"CallbackInterfaceDefinition") G.callbackInterfaceDefinition (fun a => (definitionVal a).payload) s :=
  conv_struct find_CallbackInterfaceDefinition <| g_field (a_attrs _) fun _ _ _ =>
    g_field (c_kw .callback _) fun _ _ _ => g_field (c_kw .interface _) fun _ _ _ => g_field (c_ident _) fun _ _ _ =>
    g_field (c_opt (c_inheritance _)) fun _ _ _ => g_field (b_interface _) fun _ _ _ =>
    g_field (c_punct .semiColon _) fun _ _ _ => g_ret rfl

theorem c_interfaceDefinition : C (.path0 c!"InterfaceDefinition") G.interfaceDefinition (fun a => (definitionVal a).payload) s :=
  conv_struct find_InterfaceDefinition <| g_field (a_attrs _) fun _ _ _ => g_field (c_kw .interface _) fun _ _ _ =>
    g_field (c_ident _) fun _ _ _ => g_field (c_opt (c_inheritance _)) fun _ _ _ => g_field (b_interface _) fun _ _ _ =>
    g_field (c_punct .semiColon _) fun _ _ _ => g_ret rfl

theorem c_interfaceMixinDefinition : C (.path0 c!"InterfaceMixinDefinition") G.interfaceMixinDefinition (fun a => (definitionVal a).payload) s :=
  conv_struct find_InterfaceMixinDefinition <| g_field (a_attrs _) fun _ _ _ =>
    g_field (c_kw .interface _) fun _ _ _ => g_field (c_kw .mixin _) fun _ _ _ => g_field (c_ident _) fun _ _ _ =>
    g_field (b_mixin _) fun _ _ _ => g_field (c_punct .semiColon _) fun _ _ _ => g_ret rfl

theorem c_namespaceDefinition : C (.path0 c!"NamespaceDefinition") G.namespaceDefinition (fun a => (definitionVal a).payload) s :=
  conv_struct find_NamespaceDefinition <| g_field (a_attrs _) fun _ _ _ => g_field (c_kw .namespace _) fun _ _ _ =>
    g_field (c_ident _) fun _ _ _ => g_field (b_namespace _) fun _ _ _ => g_field (c_punct .semiColon _) fun _ _ _ =>
    g_ret rfl

theorem c_dictionaryDefinition : C (.path0 c!"DictionaryDefinition") G.dictionaryDefinition (fun a => (definitionVal a).payload) s :=
  conv_struct find_DictionaryDefinition <| g_field (a_attrs _) fun _ _ _ =>
    g_field (c_kw .dictionary _) fun _ _ _ => g_field (c_ident _) fun _ _ _ =>
    g_field (c_opt (c_inheritance _)) fun _ _ _ => g_field (b_dictionary _) fun _ _ _ =>
    g_field (c_punct .semiColon _) fun _ _ _ => g_ret rfl

theorem c_partialInterfaceDefinition : C (.path0 c!"PartialInterfaceDefinition") G.partialInterfaceDefinition (fun a => (definitionVal a).payload) s :=
  conv_struct find_PartialInterfaceDefinition <| g_field (a_attrs _) fun _ _ _ =>
    g_field (c_kw .partial _) fun _ _ _ => g_field (c_kw .interface _) fun _ _ _ => g_field (c_ident _) fun _ _ _ =>
    g_field (b_interface _) fun _ _ _ => g_field (c_punct .semiColon _) fun _ _ _ => g_ret rfl

theorem c_partialInterfaceMixinDefinition : C (.path0 c!"PartialInterfaceMixinDefinition") G.partialInterfaceMixinDefinition (fun a => (definitionVal a).payload) s :=
  conv_struct find_PartialInterfaceMixinDefinition <| g_field (a_attrs _) fun _ _ _ =>
    g_field (c_kw .partial _) fun _ _ _ => g_field (c_kw .interface _) fun _ _ _ => g_field (c_kw .mixin _) fun _ _ _ =>
    g_field (c_ident _) fun _ _ _ => g_field (b_mixin _) fun _ _ _ => g_field (c_punct .semiColon _) fun _ _ _ => g_ret rfl

theorem c_partialDictionaryDefinition : C (.path0 c!"PartialDictionaryDefinition") G.partialDictionaryDefinition (fun a => (definitionVal a).payload) s :=
  conv_struct find_PartialDictionaryDefinition <| g_field (a_attrs _) fun _ _ _ =>
    g_field (c_kw .partial _) fun _ _ _ => g_field (c_kw .dictionary _) fun _ _ _ => g_field (c_ident _) fun _ _ _ =>
    g_field (b_dictionary _) fun _ _ _ => g_field (c_punct .semiColon _) fun _ _ _ => g_ret rfl

theorem c_partialNamespaceDefinition : C (.path0 c!"PartialNamespaceDefinition") G.partialNamespaceDefinition (fun a => (definitionVal a).payload) s :=
  conv_struct find_PartialNamespaceDefinition <| g_field (a_attrs _) fun _ _ _ =>
    g_field (c_kw .partial _) fun _ _ _ => g_field (c_kw .namespace _) fun _ _ _ => g_field (c_ident _) fun _ _ _ =>
    g_field (b_namespace _) fun _ _ _ => g_field (c_punct .semiColon _) fun _ _ _ => g_ret rfl

theorem c_enumDefinition : C (.path0 c!"EnumDefinition") G.enumDefinition (fun a => (definitionVal a).payload) s :=
  conv_struct find_EnumDefinition <| g_field (a_attrs _) fun _ _ _ => g_field (c_kw .enum _) fun _ _ _ =>
    g_field (c_ident _) fun _ _ _ => g_field (c_brace fun r _ => c_enumValueList r) fun _ _ _ =>
    g_field (c_punct .semiColon _) fun _ _ _ => g_ret rfl

theorem c_typedefDefinition : C (.path0 c!"TypedefDefinition") G.typedefDefinition (fun a => (definitionVal a).payload) s :=
  conv_struct find_TypedefDefinition <| g_field (a_attrs _) fun _ _ _ => g_field (c_kw .typedef _) fun _ _ _ =>
    g_field (a_attributedType _) fun _ _ _ => g_field (c_ident _) fun _ _ _ => g_field (c_punct .semiColon _) fun _ _ _ =>
    g_ret rfl

theorem c_includesStatementDefinition : C (.path0 c!"IncludesStatementDefinition") G.includesStatementDefinition (fun a => (definitionVal a).payload) s :=
  conv_struct find_IncludesStatementDefinition <| g_field (a_attrs _) fun _ _ _ => g_field (c_ident _) fun _ _ _ =>
    g_field (c_kw .includes _) fun _ _ _ => g_field (c_ident _) fun _ _ _ => g_field (c_punct .semiColon _) fun _ _ _ =>
    g_ret rfl

theorem c_implementsDefinition : C (.path0 c!"ImplementsDefinition") G.implementsDefinition (fun a => (definitionVal a).payload) s :=
  conv_struct find_ImplementsDefinition <| g_field (a_attrs _) fun _ _ _ => g_field (c_ident _) fun _ _ _ =>
    g_field (c_kw .implements _) fun _ _ _ => g_field (c_ident _) fun _ _ _ => g_field (c_punct .semiColon _) fun _ _ _ =>
    g_ret rfl

theorem c_extendedAttributeArgList : C (.path0 c!"ExtendedAttributeArgList") G.extAttrArgList (fun a => (extAttrVal a).payload) s :=
  conv_struct find_ExtendedAttributeArgList <| g_field (c_ident _) fun _ _ h1 =>
    g_field (c_args (shorter_all _)) fun _ _ _ => g_ret rfl

theorem c_extendedAttributeNamedArgList : C (.path0 c!"ExtendedAttributeNamedArgList") G.extAttrNamedArgList (fun a => (extAttrVal a).payload) s :=
  conv_struct find_ExtendedAttributeNamedArgList <| g_field (c_ident _) fun _ _ h1 =>
    g_field (c_punct .assign _) fun _ _ h2 => g_field (c_ident _) fun _ _ h3 =>
    g_field (c_args (((shorter_all _).mono h2).mono h3)) fun _ _ _ => g_ret rfl

theorem c_extendedAttributeIdentList : C (.path0 c!"ExtendedAttributeIdentList") G.extAttrIdentList (fun a => (extAttrVal a).payload) s :=
  conv_struct find_ExtendedAttributeIdentList <| g_field (c_ident _) fun _ _ _ =>
    g_field (c_punct .assign _) fun _ _ _ => g_field (c_paren fun r _ => c_identifierList r) fun _ _ _ => g_ret rfl

theorem c_extendedAttributeIdent : C (.path0 c!"ExtendedAttributeIdent") G.extAttrIdent (fun a => (extAttrVal a).payload) s :=
  conv_struct find_ExtendedAttributeIdent <| g_field (c_ident _) fun _ _ _ =>
    g_field (c_punct .assign _) fun _ _ _ => g_field (c_identifierOrString _) fun _ _ _ => g_ret rfl

theorem c_extendedAttributeWildCard : C (.path0 c!"ExtendedAttributeWildCard") G.extAttrWildcard (fun a => (extAttrVal a).payload) s :=
  conv_struct find_ExtendedAttributeWildCard <| g_field (c_ident _) fun _ _ _ =>
    g_field (c_punct .assign _) fun _ _ _ => g_field (c_punct .asterisk _) fun _ _ _ => g_ret rfl

theorem c_longLongType : C (.path0 c!"LongLongType") G.longLongType (fun a => (integerTypeVal a).payload) s :=
  conv_struct find_LongLongType <| g_field (c_optKw .unsigned _) fun _ _ _ =>
    g_kwPair (k := .long) (k' := .long) (fun _ => rfl) fun _ _ => g_ret rfl

theorem c_longType : C (.path0 c!"LongType") G.longType (fun a => (integerTypeVal a).payload) s :=
  conv_struct find_LongType <| g_field (c_optKw .unsigned _) fun _ _ _ => g_field (c_kw .long _) fun _ _ _ => g_ret rfl

theorem c_shortType : C (.path0 c!"ShortType") G.shortType (fun a => (integerTypeVal a).payload) s :=
  conv_struct find_ShortType <| g_field (c_optKw .unsigned _) fun _ _ _ =>
    g_field (c_kw .short _) fun _ _ _ => g_ret rfl

theorem c_floatType : C (.path0 c!"FloatType") G.floatType (fun a => (floatingPointTypeVal a).payload) s :=
  conv_struct find_FloatType <| g_field (c_optKw .unrestricted _) fun _ _ _ =>
    g_field (c_kw .float _) fun _ _ _ => g_ret rfl

theorem c_doubleType : C (.path0 c!"DoubleType") G.doubleType (fun a => (floatingPointTypeVal a).payload) s :=
  conv_struct find_DoubleType <| g_field (c_optKw .unrestricted _) fun _ _ _ =>
    g_field (c_kw .double _) fun _ _ _ => g_ret rfl

theorem c_variadicArgument : C (.path0 c!"VariadicArgument") G.variadicArgument (fun a => (argumentVal a).payload) s :=
  conv_struct find_VariadicArgument <| g_field (a_attrs _) fun _ _ _ => g_field (a_type _) fun _ _ _ =>
    g_field (c_punct .ellipsis _) fun _ _ _ => g_field (c_ident _) fun _ _ _ => g_ret rfl

theorem c_extendedAttributeNoArgs :
    C (.path0 c!"ExtendedAttributeNoArgs") G.extAttrNoArgs (fun a => (extAttrVal a).payload) s :=
  conv_step find_ExtendedAttributeNoArgs <| conv_mapL <| conv_mapR <| (c_ident s).congr fun _ => rfl

theorem c_oneArgument : C (.path0 c!"SingleArgument") G.singleArgument (fun a => (argumentVal a).payload) s :=
  c_singleArgument (shorter_all s) fun _ _ _ _ _ => rfl

theorem c_promise : C (.path0 c!"PromiseType") G.promiseType (fun a => (nonAnyTypeVal a).payload) s :=
  c_promiseType (shorter_all s) fun _ => rfl

theorem c_attributedNonAnyType :
    C (.path0 c!"AttributedNonAnyType") G.attributedNonAnyType (fun a => (unionMemberVal a).payload) s :=
  conv_struct find_AttributedNonAnyType <| g_field (a_attrs _) fun _ _ _ =>
    g_field (c_nonAnyType (shorter_all _)) fun _ _ _ => g_ret rfl

end

end Verif.Source
