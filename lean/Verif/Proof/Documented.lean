import Verif.Spec.Documented
import Verif.Proof.Relaxed
import Verif.Proof.Lexing

/-! # Spellings and documented forms -/

namespace Verif.Documented
open Nom Spec Pat
open WebIDL (Le seq_assoc)

/-! ## Spellings are of the documented form -/

theorem attrs_le (as : Option (List ExtAttr)) : Le (attributes as) attrs.lang := by
  intro ls h
  cases as with
  | none => exact .inl h
  | some as =>
    obtain ⟨a, _, rfl, ha, b, c, rfl, hb, hc⟩ := h
    exact .inr ⟨a, _, rfl, ha, b, c, rfl, ⟨as, hb⟩, hc⟩

theorem hole_le {α : Type} {w : Str} {L : α → Lang} (a : α) : Le (L a) (hole w L).lang := fun _ h => ⟨a, h⟩

theorem tok_le (w : Str) : Le (tok w) (word w).lang := fun _ h => h

theorem optTok_le (b : Bool) (w : Str) : Le (optTok b w) (opt (word w)).lang := by
  intro ls h
  cases b with
  | false => exact .inl h
  | true => exact .inr h

theorem flat {A B C D : Lang} (h : Le (A ⨾ B ⨾ C) D) : Le ((A ⨾ B) ⨾ C) D := by rw [seq_assoc]; exact h

theorem named_le {T T' B B' : Lang} {i : Str} (h : Le T T') (hb : Le B B') :
    Le (named T i ⨾ B) (T' ⨾ ident.lang ⨾ B') := by
  rintro _ ⟨_, c, rfl, ⟨a, b, rfl, ha, hi, -⟩, hc⟩
  exact ⟨a, b ++ c, by simp, h _ ha, b, c, rfl, ⟨i, hi⟩, hb _ hc⟩

theorem namedAttributed_le {B B' : Lang} {t : AttributedType} {i : Str} (hb : Le B B') :
    Le (namedAttributed t i ⨾ B) (attributedTy.lang ⨾ ident.lang ⨾ B') := by
  obtain ⟨as, t⟩ := t
  simp only [namedAttributed]
  rintro _ ⟨_, d, rfl, ⟨a, _, rfl, ha, b, c, rfl, hb', hi, -⟩, hd⟩
  exact ⟨a ++ b, c ++ d, by simp, ⟨.mk as t, by simp only [Spec.attributedType]; exact ⟨a, b, rfl, ha, hb'⟩⟩,
    c, d, rfl, ⟨i, hi⟩, hb _ hd⟩

theorem returnNamed_le {B B' : Lang} {r : ReturnType} {i : Option Str} (hb : Le B B') :
    Le (returnNamed r i ⨾ B) (returnTy.lang ⨾ (opt ident).lang ⨾ B') := by
  cases i with
  | none =>
    rintro _ ⟨a, b, rfl, ha, hb'⟩
    exact ⟨a, b, rfl, ⟨r, ha⟩, [], b, rfl, .inl rfl, hb _ hb'⟩
  | some i =>
    rintro _ ⟨_, c, rfl, ⟨a, b, rfl, ha, hi, -⟩, hc⟩
    exact ⟨a, b ++ c, by simp, ⟨r, ha⟩, b, c, rfl, .inr ⟨i, hi⟩, hb _ hc⟩

theorem argumentList_le (as : List Argument) : Le (argumentList as) args.lang := by
  rintro _ ⟨a, _, rfl, ha, b, c, rfl, hb, hc⟩
  exact ⟨a, _, rfl, ha, b, c, rfl, ⟨as, hb⟩, hc⟩

theorem optArgumentList_le (as : Option (List Argument)) : Le (optArgumentList as) (opt args).lang := by
  intro ls h
  cases as with
  | none => exact .inl h
  | some as => exact .inr (argumentList_le as _ h)

theorem angles_le {A A' B B' : Lang} (h : Le A A') (hb : Le B B') :
    Le (angles A ⨾ B) (tok c!"<" ⨾ A' ⨾ tok c!">" ⨾ B') := by
  simp only [angles, seq_assoc]
  exact (Le.refl _).seq (h.seq ((Le.refl _).seq hb))

theorem body_le {α : Type} (L : α → Lang) (ms : List α) : Le (body L ms) (members L).lang := by
  simp only [body, braces, seq_assoc]
  exact (tok_le _).seq ((hole_le (L := fun ms : List α => concat (ms.map L)) ms).seq ((tok_le _).seq (tok_le _)))

theorem inheritance_le (i : Option Str) : Le (Spec.inheritance i) optInheritance.lang := by
  intro ls h
  cases i with
  | none => exact .inl h
  | some i =>
    obtain ⟨a, b, rfl, ha, hb⟩ := h
    exact .inr ⟨a, b, rfl, ha, ⟨i, hb⟩⟩

theorem default_le (d : Option DefaultValue) : Le (default d) optDefault.lang := by
  intro ls h
  cases d with
  | none => exact .inl h
  | some d =>
    obtain ⟨a, b, rfl, ha, hb⟩ := h
    exact .inr ⟨a, b, rfl, ha, ⟨d, hb⟩⟩

theorem typePair_le {B B' : Lang} {p : AttributedType × AttributedType} (hb : Le B B') :
    Le (typePair p ⨾ B) (attributedTy.lang ⨾ tok c!"," ⨾ attributedTy.lang ⨾ B') := by
  simp only [typePair, comma, seq_assoc]
  exact (hole_le p.1).seq ((Le.refl _).seq ((hole_le p.2).seq hb))

/-- A part that may be missing. -/
theorem skip {A B : Lang} {p : Pat} (h : Le A B) : Le A ((opt p).lang ⨾ B) :=
  fun _ ha => ⟨[], _, rfl, .inl rfl, h _ ha⟩

theorem take {A A' B : Lang} {p : Pat} (h : Le A p.lang) (h' : Le A' B) : Le (A ⨾ A') ((opt p).lang ⨾ B) := by
  rintro _ ⟨a, b, rfl, ha, hb⟩
  exact ⟨a, b, rfl, .inr (h _ ha), h' _ hb⟩

theorem avoid {ps : List (List Str)} {A B : Lang} (h : Le A B) : Le (avoiding ps A) B := fun _ ha => h _ ha.1

theorem right {A B : Lang} (h : Le A B) {C : Lang} : Le A (fun ls => C ls ∨ B ls) := fun _ ha => .inr (h _ ha)
theorem left {A B : Lang} (h : Le A B) {C : Lang} : Le A (fun ls => B ls ∨ C ls) := fun _ ha => .inl (h _ ha)

theorem modifier_le (m : Option StringifierOrInheritOrStatic) :
    Le (modifier m) (opt (group stringifierOrInheritOrStatic)).lang := by
  intro ls h
  cases m with
  | none => exact .inl h
  | some m => cases m with
    | stringifier => exact .inr (.inl h)
    | inherit => exact .inr (.inr (.inl h))
    | static => exact .inr (.inr (.inr h))

theorem modified_le {m : Option StringifierOrStatic} {A B : Lang} (h : Le A B) :
    Le (modified m A) ((opt (group stringifierOrStatic)).lang ⨾ B) := by
  cases m with
  | none => exact avoid (skip h)
  | some m => cases m with
    | stringifier => exact take (left (tok_le _)) h
    | static => exact take (right (tok_le _)) h

theorem specialised_le {m : Option Special} {A B : Lang} (h : Le A B) :
    Le (specialised m A) ((opt (hole c!"special" specialWord)).lang ⨾ B) := by
  cases m with
  | none => exact avoid (skip h)
  | some m => cases m with
    | getter => exact take (hole_le (L := specialWord) .getter) h
    | setter => exact take (hole_le (L := specialWord) .setter) h
    | deleter => exact take (hole_le (L := specialWord) .deleter) h
    | legacyCaller => exact take (hole_le (L := specialWord) .legacyCaller) h

theorem optWord_le {b : Bool} {w : Str} {A B : Lang} (h : Le A B) :
    Le (optWord b w A) ((opt (word w)).lang ⨾ B) := by
  cases b with
  | false => exact avoid (skip h)
  | true => exact take (tok_le _) h

/-! ### Argument -/

theorem seq_eps {A B : Lang} (h : Le (A ⨾ eps) B) : Le A B := fun ls ha => h ls ⟨ls, [], by simp, ha, rfl⟩

theorem singleArgument_le (as : Option (List ExtAttr)) (o : Bool) (t : AttributedType) (i : Str)
    (d : Option DefaultValue) : Le (argument (.single as o t i d)) singleArgument.lang := by
  simp only [argument]
  refine (attrs_le as).seq ?_
  cases o with
  | true => exact take (tok_le _) (namedAttributed_le (default_le d))
  | false =>
    rintro ls ⟨-, h, -⟩
    exact skip (seq_eps (namedAttributed_le (fun ls h => .inl h))) ls h

/-- The spellings of all values are of the form `p`. -/
def Fits {α : Type} (L : α → Lang) (p : Pat) : Prop := ∀ a, Le (L a) p.lang

/-- Whatever is of the form `p` spells a value. -/
def Fills {α : Type} (L : α → Lang) (p : Pat) : Prop := ∀ ls, p.lang ls → ∃ a, L a ls

theorem fits_only {α : Type} {P : α → Prop} {L : α → Lang} {p : Pat} (h : ∀ a, P a → Le (L a) p.lang) :
    Fits (only P L) p := fun a ls hl => h a hl.1 ls hl.2

theorem fits_singleArgument : Fits (only (argumentArity · = .one) argument) singleArgument := by
  refine fits_only fun a h => ?_
  cases a with
  | single as o t i d => exact singleArgument_le as o t i d
  | variadic as t i => cases h

theorem fits_variadicArgument : Fits (only (argumentArity · = .several) argument) variadicArgument := by
  refine fits_only fun a h => ?_
  cases a with
  | single as o t i d => cases h
  | variadic as t i =>
    simp only [argument]
    exact (attrs_le as).seq ((hole_le t).seq ((tok_le _).seq (hole_le i)))

theorem fits_identifier : Fits name identifier := by
  rintro i ls ⟨h, h'⟩
  rcases h' with rfl | rfl
  · exact ⟨i, identifier_name.2 ⟨i, h, .inl rfl⟩, rfl⟩
  · exact ⟨_, identifier_name.2 ⟨i, h, .inr rfl⟩, rfl⟩

theorem fits_stringLit : Fits string stringLit := by
  rintro v ls ⟨h, rfl⟩
  exact ⟨_, string_item.2 ⟨v, h, rfl⟩, rfl⟩

theorem fits_unit {L : Unit → Lang} {p : Pat} (h : L () = p.lang := by rfl) : Fits L p := fun _ _ hl => h ▸ hl

theorem fits_hole {α : Type} {w : Str} {L : α → Lang} : Fits L (hole w L) := fun a => hole_le a

theorem fits_dictionaryMember : Fits Spec.dictionaryMember Pat.dictionaryMember := fun m =>
  (attrs_le _).seq (optWord_le (named_le (hole_le _) ((default_le _).seq (tok_le _))))

theorem fits_inheritance : Fits inheritancePart Pat.inheritance := fun i => (tok_le _).seq (hole_le i)

theorem fits_constMember : Fits Spec.constMember Pat.constMember := fun m =>
  (attrs_le _).seq ((tok_le _).seq (named_le (hole_le _) ((tok_le _).seq ((hole_le _).seq (tok_le _)))))

theorem fits_modifier : Fits modifierWord stringifierOrInheritOrStatic := by
  intro m ls h
  cases m with
  | stringifier => exact .inl h
  | inherit => exact .inr (.inl h)
  | static => exact .inr (.inr h)

theorem fits_static : Fits staticWord stringifierOrStatic := by
  intro m ls h
  cases m with
  | stringifier => exact .inl h
  | static => exact .inr h

theorem fits_attribute : Fits Spec.attributeInterfaceMember Pat.attributeInterfaceMember := fun m =>
  (attrs_le _).seq ((modifier_le _).seq ((optTok_le _ _).seq ((tok_le _).seq (namedAttributed_le (tok_le _)))))

theorem fits_constructor : Fits Spec.constructorInterfaceMember Pat.constructorInterfaceMember := fun m =>
  (attrs_le _).seq ((tok_le _).seq ((argumentList_le _).seq (tok_le _)))

theorem fits_operation : Fits operationAlone Pat.operationInterfaceMember := fun m =>
  (attrs_le _).seq (modified_le (specialised_le (returnNamed_le ((argumentList_le _).seq (tok_le _)))))

theorem iterable1_le {B B' : Lang} {t : AttributedType} (hb : Le B B') :
    Le (tok c!"iterable" ⨾ angles (Spec.attributedType t) ⨾ B) (iterable1.lang ⨾ B') := by
  have : iterable1.lang = (tok c!"iterable" ⨾ tok c!"<" ⨾ attributedTy.lang ⨾ tok c!">") := rfl
  rw [this, seq_assoc, seq_assoc, seq_assoc]
  exact (Le.refl _).seq (angles_le (hole_le t) hb)

theorem iterable2_le {B B' : Lang} {p : AttributedType × AttributedType} (hb : Le B B') :
    Le (tok c!"iterable" ⨾ angles (typePair p) ⨾ B) (iterable2.lang ⨾ B') := by
  have : iterable2.lang =
    (tok c!"iterable" ⨾ tok c!"<" ⨾ attributedTy.lang ⨾ tok c!"," ⨾ attributedTy.lang ⨾ tok c!">") := rfl
  rw [this, seq_assoc, seq_assoc, seq_assoc, seq_assoc, seq_assoc]
  simp only [angles, seq_assoc]
  exact (Le.refl _).seq ((Le.refl _).seq (typePair_le ((Le.refl _).seq hb)))

theorem left_seq {A B C : Lang} : Le (A ⨾ C) ((fun ls => A ls ∨ B ls) ⨾ C) := (left (Le.refl _)).seq (Le.refl _)
theorem right_seq {A B C : Lang} : Le (B ⨾ C) ((fun ls => A ls ∨ B ls) ⨾ C) := (right (Le.refl _)).seq (Le.refl _)

theorem fits_singleTypedIterable :
    Fits (only (iterableArity · = .one) iterableInterfaceMember) singleTypedIterable := by
  refine fits_only fun a h => ?_
  cases a with
  | single as t => exact (attrs_le _).seq (iterable1_le (tok_le _))
  | double as p => cases h

theorem fits_doubleTypedIterable :
    Fits (only (iterableArity · = .several) iterableInterfaceMember) doubleTypedIterable := by
  refine fits_only fun a h => ?_
  cases a with
  | single as t => cases h
  | double as p => exact (attrs_le _).seq (iterable2_le (tok_le _))

theorem fits_iterable : Fits iterableInterfaceMember iterable := by
  intro a
  cases a with
  | single as t => exact (attrs_le _).seq ((iterable1_le (tok_le _)).trans left_seq)
  | double as p => exact (attrs_le _).seq ((iterable2_le (tok_le _)).trans right_seq)

theorem fits_singleTypedAsyncIterable :
    Fits (only (asyncIterableArity · = .one) asyncIterableInterfaceMember) singleTypedAsyncIterable := by
  refine fits_only fun a h => ?_
  cases a with
  | single as t args =>
    exact (attrs_le _).seq ((tok_le _).seq (iterable1_le ((optArgumentList_le _).seq (tok_le _))))
  | double as p args => cases h

theorem fits_doubleTypedAsyncIterable :
    Fits (only (asyncIterableArity · = .several) asyncIterableInterfaceMember) doubleTypedAsyncIterable := by
  refine fits_only fun a h => ?_
  cases a with
  | single as t args => cases h
  | double as p args =>
    exact (attrs_le _).seq ((tok_le _).seq (iterable2_le ((optArgumentList_le _).seq (tok_le _))))

theorem fits_asyncIterable : Fits asyncIterableInterfaceMember asyncIterable := by
  intro a
  cases a with
  | single as t args =>
    exact (attrs_le _).seq ((tok_le _).seq ((iterable1_le ((optArgumentList_le _).seq (tok_le _))).trans left_seq))
  | double as p args =>
    exact (attrs_le _).seq ((tok_le _).seq ((iterable2_le ((optArgumentList_le _).seq (tok_le _))).trans right_seq))

theorem fits_maplike : Fits maplikeInterfaceMember maplike := by
  intro m
  simp only [maplikeInterfaceMember, angles, seq_assoc]
  exact (attrs_le _).seq ((optTok_le _ _).seq ((tok_le _).seq ((tok_le _).seq (typePair_le ((tok_le _).seq (tok_le _))))))

theorem fits_operationMixin : Fits Spec.operationMixinMember Pat.operationMixinMember := fun m =>
  (attrs_le _).seq (optWord_le (returnNamed_le ((argumentList_le _).seq (tok_le _))))

theorem fits_attributeMixin : Fits Spec.attributeMixinMember Pat.attributeMixinMember := fun m =>
  (attrs_le _).seq ((optTok_le _ _).seq ((optTok_le _ _).seq ((tok_le _).seq (namedAttributed_le (tok_le _)))))

theorem fits_operationNamespace : Fits Spec.operationNamespaceMember Pat.operationNamespaceMember := fun m =>
  (attrs_le _).seq (returnNamed_le ((argumentList_le _).seq (tok_le _)))

/-! ### Definitions -/

theorem fits_callback : Fits (only (kind · = .callback) definition) callback := by
  refine fits_only fun a h => ?_
  cases a with
  | callback as i r args =>
    simp only [definition, argumentList, parens, seq_assoc]
    exact (attrs_le _).seq ((tok_le _).seq ((hole_le i).seq ((tok_le _).seq ((hole_le r).seq ((tok_le _).seq
      ((hole_le (L := fun as => sepBy comma (arguments as)) args).seq ((tok_le _).seq (tok_le _))))))))
  | _ => cases h

theorem fits_callbackInterface : Fits (only (kind · = .callbackInterface) definition) callbackInterface := by
  refine fits_only fun a h => ?_
  cases a with
  | callbackInterface as i inh ms =>
    exact (attrs_le _).seq ((tok_le _).seq ((tok_le _).seq ((hole_le i).seq ((inheritance_le _).seq (body_le _ _)))))
  | _ => cases h

theorem fits_interface : Fits (only (kind · = .interface) definition) interface := by
  refine fits_only fun a h => ?_
  cases a with
  | interface as i inh ms =>
    exact (attrs_le _).seq ((tok_le _).seq ((hole_le i).seq ((inheritance_le _).seq (body_le _ _))))
  | _ => cases h

theorem fits_interfaceMixin : Fits (only (kind · = .interfaceMixin) definition) interfaceMixin := by
  refine fits_only fun a h => ?_
  cases a with
  | interfaceMixin as i ms =>
    exact (attrs_le _).seq ((tok_le _).seq ((tok_le _).seq ((hole_le i).seq (body_le _ _))))
  | _ => cases h

theorem fits_namespace : Fits (only (kind · = .namespace) definition) Pat.namespace := by
  refine fits_only fun a h => ?_
  cases a with
  | «namespace» as i ms =>
    exact (attrs_le _).seq ((tok_le _).seq ((hole_le i).seq (body_le _ _)))
  | _ => cases h

theorem fits_dictionary : Fits (only (kind · = .dictionary) definition) dictionary := by
  refine fits_only fun a h => ?_
  cases a with
  | dictionary as i inh ms =>
    exact (attrs_le _).seq ((tok_le _).seq ((hole_le i).seq ((inheritance_le _).seq (body_le _ _))))
  | _ => cases h

theorem fits_partialInterface : Fits (only (kind · = .partialInterface) definition) partialInterface := by
  refine fits_only fun a h => ?_
  cases a with
  | partialInterface as i ms =>
    exact (attrs_le _).seq ((tok_le _).seq ((tok_le _).seq ((hole_le i).seq (body_le _ _))))
  | _ => cases h

theorem fits_partialInterfaceMixin :
    Fits (only (kind · = .partialInterfaceMixin) definition) partialInterfaceMixin := by
  refine fits_only fun a h => ?_
  cases a with
  | partialInterfaceMixin as i ms =>
    exact (attrs_le _).seq ((tok_le _).seq ((tok_le _).seq ((tok_le _).seq ((hole_le i).seq (body_le _ _)))))
  | _ => cases h

theorem fits_partialDictionary : Fits (only (kind · = .partialDictionary) definition) partialDictionary := by
  refine fits_only fun a h => ?_
  cases a with
  | partialDictionary as i ms =>
    exact (attrs_le _).seq ((tok_le _).seq ((tok_le _).seq ((hole_le i).seq (body_le _ _))))
  | _ => cases h

theorem fits_partialNamespace : Fits (only (kind · = .partialNamespace) definition) partialNamespace := by
  refine fits_only fun a h => ?_
  cases a with
  | partialNamespace as i ms =>
    exact (attrs_le _).seq ((tok_le _).seq ((tok_le _).seq ((hole_le i).seq (body_le _ _))))
  | _ => cases h

theorem fits_enum : Fits (only (kind · = .enum) definition) Pat.enum := by
  refine fits_only fun a h => ?_
  cases a with
  | enum as i vs =>
    simp only [definition, braces, seq_assoc]
    exact (attrs_le _).seq ((tok_le _).seq ((hole_le i).seq ((tok_le _).seq ((hole_le vs).seq ((tok_le _).seq
      (tok_le _))))))
  | _ => cases h

theorem fits_typedef : Fits (only (kind · = .typedef) definition) typedef := by
  refine fits_only fun a h => ?_
  cases a with
  | typedef as t i => exact (attrs_le _).seq ((tok_le _).seq (namedAttributed_le (tok_le _)))
  | _ => cases h

theorem fits_includes : Fits includesAlone includes := by
  intro a
  cases a with
  | includesStatement as l r =>
    exact (attrs_le _).seq ((hole_le l).seq ((tok_le _).seq ((hole_le r).seq (tok_le _))))
  | _ => exact fun _ h => h.elim

theorem fits_implements : Fits implementsAlone implements := by
  intro a
  cases a with
  | implements as l r =>
    exact (attrs_le _).seq ((hole_le l).seq ((tok_le _).seq ((hole_le r).seq (tok_le _))))
  | _ => exact fun _ h => h.elim

/-! ### Types -/

theorem fits_sequence : Fits sequencePart sequence := fun t => (tok_le _).seq ((tok_le _).seq ((hole_le t).seq (tok_le _)))

theorem fits_frozenArray : Fits frozenArrayPart frozenArray := fun t =>
  (tok_le _).seq ((tok_le _).seq ((hole_le t).seq (tok_le _)))

theorem fits_promise : Fits (only (∃ r, · = .promise r) nonAnyType) promise := by
  refine fits_only fun a h => ?_
  obtain ⟨r, rfl⟩ := h
  simp only [nonAnyType]
  refine (tok_le _).seq ((tok_le _).seq (Le.seq ?_ (tok_le _)))
  cases r with
  | undefined =>
    simp only [returnType]
    exact right (tok_le _)
  | type t =>
    simp only [returnType]
    exact avoid (left (hole_le t))

theorem fits_longLong : Fits (only (integerKind · = .longLong) Spec.integerType) longLong := by
  refine fits_only fun a h => ?_
  cases a with
  | longLong u => exact (optTok_le _ _).seq (Le.refl _)
  | _ => cases h

theorem fits_long : Fits (only (integerKind · = .long) Spec.integerType) long := by
  refine fits_only fun a h => ?_
  cases a with
  | long u => exact (optTok_le _ _).seq (Le.refl _)
  | _ => cases h

theorem fits_short : Fits (only (integerKind · = .short) Spec.integerType) short := by
  refine fits_only fun a h => ?_
  cases a with
  | short u => exact (optTok_le _ _).seq (Le.refl _)
  | _ => cases h

theorem fits_integerType : Fits Spec.integerType Pat.integerType := by
  intro a
  cases a with
  | longLong u => exact (optTok_le _ _).seq (right (right (Le.refl _)))
  | long u => exact (optTok_le _ _).seq (right (left (Le.refl _)))
  | short u => exact (optTok_le _ _).seq (left (Le.refl _))

theorem fits_float : Fits (only (floatKind · = .float) Spec.floatingPointType) float := by
  refine fits_only fun a h => ?_
  cases a with
  | float u => exact (optTok_le _ _).seq (Le.refl _)
  | _ => cases h

theorem fits_double : Fits (only (floatKind · = .double) Spec.floatingPointType) double := by
  refine fits_only fun a h => ?_
  cases a with
  | double u => exact (optTok_le _ _).seq (Le.refl _)
  | _ => cases h

theorem fits_floatingPointType : Fits Spec.floatingPointType Pat.floatingPointType := by
  intro a
  cases a with
  | float u => exact (optTok_le _ _).seq (left (Le.refl _))
  | double u => exact (optTok_le _ _).seq (right (Le.refl _))

theorem fits_record : Fits recordPart record := by
  rintro ⟨k, v⟩
  simp only [recordPart, angles, comma, seq_assoc]
  exact (tok_le _).seq ((tok_le _).seq ((hole_le k).seq ((tok_le _).seq ((hole_le v).seq (tok_le _)))))

theorem fits_attributedType : Fits Spec.attributedType Pat.attributedType := by
  rintro ⟨as, t⟩
  simp only [Spec.attributedType]
  exact (attrs_le _).seq (hole_le t)

theorem fits_attributedNonAnyType : Fits (only (∃ as t, · = .single as t) unionMember) attributedNonAnyType := by
  refine fits_only fun a h => ?_
  obtain ⟨as, t, rfl⟩ := h
  simp only [unionMember]
  exact (attrs_le _).seq (hole_le t)

/-! ## What is of the documented form spells a value -/

theorem attrs_ex {ls : List Str} (h : attrs.lang ls) : ∃ as, attributes as ls := by
  rcases h with rfl | ⟨a, _, rfl, ha, b, c, rfl, ⟨as, hb⟩, hc⟩
  · exact ⟨none, by simp only [attributes]; rfl⟩
  · exact ⟨some as, by simp only [attributes]; exact ⟨a, _, rfl, ha, b, c, rfl, hb, hc⟩⟩

theorem optTok_ex {w : Str} {ls : List Str} (h : (opt (word w)).lang ls) : ∃ b, optTok b w ls := by
  rcases h with rfl | h
  · exact ⟨false, rfl⟩
  · exact ⟨true, h⟩

theorem args_ex {ls : List Str} (h : args.lang ls) : ∃ as, argumentList as ls := by
  obtain ⟨a, _, rfl, ha, b, c, rfl, ⟨as, hb⟩, hc⟩ := h
  exact ⟨as, a, _, rfl, ha, b, c, rfl, hb, hc⟩

theorem optArgs_ex {ls : List Str} (h : (opt args).lang ls) : ∃ as, optArgumentList as ls := by
  rcases h with rfl | h
  · exact ⟨none, rfl⟩
  · obtain ⟨as, h⟩ := args_ex h
    exact ⟨some as, h⟩

theorem optInheritance_ex {ls : List Str} (h : optInheritance.lang ls) : ∃ i, Spec.inheritance i ls := by
  rcases h with rfl | ⟨a, b, rfl, ha, ⟨i, hb⟩⟩
  · exact ⟨none, rfl⟩
  · exact ⟨some i, a, b, rfl, ha, hb⟩

theorem members_ex {α : Type} {L : α → Lang} {ls : List Str} (h : (members L).lang ls) : ∃ ms, body L ms ls := by
  obtain ⟨a, _, rfl, ha, b, _, rfl, ⟨ms, hb⟩, c, d, rfl, hc, hd⟩ := h
  refine ⟨ms, ?_⟩
  simp only [body, braces, seq_assoc]
  exact ⟨a, _, rfl, ha, b, _, rfl, hb, c, d, rfl, hc, hd⟩

theorem fills_hole {α : Type} {w : Str} {L : α → Lang} : Fills L (hole w L) := fun _ h => h

theorem fills_variadicArgument : Fills (only (argumentArity · = .several) argument) variadicArgument := by
  rintro _ ⟨a, _, rfl, ha, b, _, rfl, ⟨t, hb⟩, c, d, rfl, hc, ⟨i, hd⟩⟩
  obtain ⟨as, ha⟩ := attrs_ex ha
  exact ⟨.variadic as t i, rfl, by simp only [argument]; exact ⟨a, _, rfl, ha, b, _, rfl, hb, c, d, rfl, hc, hd⟩⟩

theorem fills_identifier : Fills name identifier := by
  rintro _ ⟨w, hw, rfl⟩
  exact identifier_name.1 hw

theorem fills_stringLit : Fills string stringLit := by
  rintro _ ⟨w, hw, rfl⟩
  exact string_item.1 hw

theorem fills_unit {L : Unit → Lang} {p : Pat} (h : L () = p.lang := by rfl) : Fills L p := fun _ hl => ⟨(), h ▸ hl⟩

theorem fills_inheritance : Fills inheritancePart Pat.inheritance := by
  rintro _ ⟨a, b, rfl, ha, ⟨i, hb⟩⟩
  exact ⟨i, a, b, rfl, ha, hb⟩

theorem fills_modifier : Fills modifierWord stringifierOrInheritOrStatic := by
  rintro _ (h | h | h)
  · exact ⟨.stringifier, h⟩
  · exact ⟨.inherit, h⟩
  · exact ⟨.static, h⟩

theorem fills_static : Fills staticWord stringifierOrStatic := by
  rintro _ (h | h)
  · exact ⟨.stringifier, h⟩
  · exact ⟨.static, h⟩

theorem fills_constructor : Fills Spec.constructorInterfaceMember Pat.constructorInterfaceMember := by
  rintro _ ⟨a, _, rfl, ha, b, _, rfl, hb, c, d, rfl, hc, hd⟩
  obtain ⟨as, ha⟩ := attrs_ex ha
  obtain ⟨args, hc⟩ := args_ex hc
  exact ⟨⟨as, args⟩, a, _, rfl, ha, b, _, rfl, hb, c, d, rfl, hc, hd⟩

theorem iterable1_ex {ls : List Str} (h : iterable1.lang ls) :
    ∃ t, (tok c!"iterable" ⨾ angles (Spec.attributedType t)) ls := by
  obtain ⟨a, _, rfl, ha, b, _, rfl, hb, c, d, rfl, ⟨t, hc⟩, hd⟩ := h
  exact ⟨t, a, _, rfl, ha, b, _, rfl, hb, c, d, rfl, hc, hd⟩

theorem iterable2_ex {ls : List Str} (h : iterable2.lang ls) :
    ∃ p, (tok c!"iterable" ⨾ angles (typePair p)) ls := by
  obtain ⟨a, _, rfl, ha, b, _, rfl, hb, c, _, rfl, ⟨t, hc⟩, d, _, rfl, hd, e, f, rfl, ⟨u, he⟩, hf⟩ := h
  refine ⟨(t, u), ?_⟩
  simp only [angles, typePair, seq_assoc]
  exact ⟨a, _, rfl, ha, b, _, rfl, hb, c, _, rfl, hc, d, _, rfl, hd, e, f, rfl, he, hf⟩

theorem fills_singleTypedIterable :
    Fills (only (iterableArity · = .one) iterableInterfaceMember) singleTypedIterable := by
  rintro _ ⟨a, _, rfl, ha, b, c, rfl, hb, hc⟩
  obtain ⟨as, ha⟩ := attrs_ex ha
  obtain ⟨t, hb⟩ := iterable1_ex hb
  refine ⟨.single as t, rfl, ?_⟩
  simp only [iterableInterfaceMember]
  rw [← seq_assoc (tok c!"iterable")]
  exact ⟨a, _, rfl, ha, b, c, rfl, hb, hc⟩

theorem fills_doubleTypedIterable :
    Fills (only (iterableArity · = .several) iterableInterfaceMember) doubleTypedIterable := by
  rintro _ ⟨a, _, rfl, ha, b, c, rfl, hb, hc⟩
  obtain ⟨as, ha⟩ := attrs_ex ha
  obtain ⟨t, hb⟩ := iterable2_ex hb
  refine ⟨.double as t, rfl, ?_⟩
  simp only [iterableInterfaceMember]
  rw [← seq_assoc (tok c!"iterable")]
  exact ⟨a, _, rfl, ha, b, c, rfl, hb, hc⟩

theorem fills_iterable : Fills iterableInterfaceMember iterable := by
  rintro _ ⟨a, _, rfl, ha, b, c, rfl, hb | hb, hc⟩
  · obtain ⟨m, -, h⟩ := fills_singleTypedIterable _ ⟨a, _, rfl, ha, b, c, rfl, hb, hc⟩
    exact ⟨m, h⟩
  · obtain ⟨m, -, h⟩ := fills_doubleTypedIterable _ ⟨a, _, rfl, ha, b, c, rfl, hb, hc⟩
    exact ⟨m, h⟩

theorem fills_singleTypedAsyncIterable :
    Fills (only (asyncIterableArity · = .one) asyncIterableInterfaceMember) singleTypedAsyncIterable := by
  rintro _ ⟨a, _, rfl, ha, b, _, rfl, hb, c, _, rfl, hc, d, e, rfl, hd, he⟩
  obtain ⟨as, ha⟩ := attrs_ex ha
  obtain ⟨t, hc⟩ := iterable1_ex hc
  obtain ⟨args, hd⟩ := optArgs_ex hd
  refine ⟨.single as t args, rfl, ?_⟩
  simp only [asyncIterableInterfaceMember]
  rw [← seq_assoc (tok c!"iterable")]
  exact ⟨a, _, rfl, ha, b, _, rfl, hb, c, _, rfl, hc, d, e, rfl, hd, he⟩

theorem fills_doubleTypedAsyncIterable :
    Fills (only (asyncIterableArity · = .several) asyncIterableInterfaceMember) doubleTypedAsyncIterable := by
  rintro _ ⟨a, _, rfl, ha, b, _, rfl, hb, c, _, rfl, hc, d, e, rfl, hd, he⟩
  obtain ⟨as, ha⟩ := attrs_ex ha
  obtain ⟨t, hc⟩ := iterable2_ex hc
  obtain ⟨args, hd⟩ := optArgs_ex hd
  refine ⟨.double as t args, rfl, ?_⟩
  simp only [asyncIterableInterfaceMember]
  rw [← seq_assoc (tok c!"iterable")]
  exact ⟨a, _, rfl, ha, b, _, rfl, hb, c, _, rfl, hc, d, e, rfl, hd, he⟩

theorem fills_asyncIterable : Fills asyncIterableInterfaceMember asyncIterable := by
  rintro _ ⟨a, _, rfl, ha, b, _, rfl, hb, c, _, rfl, hc | hc, d, e, rfl, hd, he⟩
  · obtain ⟨m, -, h⟩ := fills_singleTypedAsyncIterable _ ⟨a, _, rfl, ha, b, _, rfl, hb, c, _, rfl, hc, d, e, rfl, hd, he⟩
    exact ⟨m, h⟩
  · obtain ⟨m, -, h⟩ := fills_doubleTypedAsyncIterable _ ⟨a, _, rfl, ha, b, _, rfl, hb, c, _, rfl, hc, d, e, rfl, hd, he⟩
    exact ⟨m, h⟩

theorem fills_maplike : Fills maplikeInterfaceMember maplike := by
  rintro _ ⟨a, _, rfl, ha, b, _, rfl, hb, c, _, rfl, hc, d, _, rfl, hd, e, _, rfl, ⟨t, he⟩, f, _, rfl, hf,
    g, _, rfl, ⟨u, hg⟩, h, i, rfl, hh, hi⟩
  obtain ⟨as, ha⟩ := attrs_ex ha
  obtain ⟨ro, hb⟩ := optTok_ex hb
  refine ⟨⟨as, ro, (t, u)⟩, ?_⟩
  simp only [maplikeInterfaceMember, angles, typePair, seq_assoc]
  exact ⟨a, _, rfl, ha, b, _, rfl, hb, c, _, rfl, hc, d, _, rfl, hd, e, _, rfl, he, f, _, rfl, hf,
    g, _, rfl, hg, h, i, rfl, hh, hi⟩

/-- A type and a name that are together a type of several words. -/
theorem twoWord_type {ls : List Str} (h : ls ∈ twoWordTypes) : ∃ t, returnType (.type t) ls := by
  simp only [twoWordTypes, List.mem_cons, List.not_mem_nil, or_false] at h
  have key : ∀ t : NonAnyType, nonAnyType t ls → ¬ ([c!"any"] <+: ls) → ¬ ([c!"undefined"] <+: ls) →
      ∃ t, returnType (.type t) ls := by
    intro t h h1 h2
    refine ⟨.single (.nonAny t), ?_⟩
    simp only [returnType, type, singleType, avoiding, List.mem_cons, List.not_mem_nil, or_false, forall_eq, h1, h2,
      not_false_iff, and_true]
    exact h
  have none : ∀ {A : Lang}, A ls → (A ⨾ optTok false c!"?") ls := fun h => ⟨ls, [], by simp, h, rfl⟩
  rcases h with rfl | rfl | rfl | rfl | rfl | rfl
  · exact key (.integer (.longLong false) false) (by simp only [nonAnyType]; exact none ⟨[], _, rfl, rfl, [_], [_], rfl, rfl, rfl⟩)
      (by simp) (by simp)
  · exact key (.integer (.long true) false) (by simp only [nonAnyType]; exact none ⟨[_], _, rfl, rfl, rfl⟩) (by simp) (by simp)
  · exact key (.integer (.short true) false) (by simp only [nonAnyType]; exact none ⟨[_], _, rfl, rfl, rfl⟩) (by simp) (by simp)
  · exact key (.integer (.longLong true) false)
      (by simp only [nonAnyType]; exact none ⟨[_], _, rfl, rfl, [_], [_], rfl, rfl, rfl⟩) (by simp) (by simp)
  · exact key (.floatingPoint (.float true) false) (by simp only [nonAnyType]; exact none ⟨[_], _, rfl, rfl, rfl⟩) (by simp)
      (by simp)
  · exact key (.floatingPoint (.double true) false) (by simp only [nonAnyType]; exact none ⟨[_], _, rfl, rfl, rfl⟩) (by simp)
      (by simp)

theorem fills_operationNamespace : Fills Spec.operationNamespaceMember Pat.operationNamespaceMember := by
  rintro _ ⟨a, _, rfl, ha, b, _, rfl, ⟨r, hb⟩, c, _, rfl, hc, d, e, rfl, hd, he⟩
  obtain ⟨as, ha⟩ := attrs_ex ha
  obtain ⟨args, hd⟩ := args_ex hd
  rcases hc with rfl | ⟨i, hc⟩
  · exact ⟨⟨as, r, none, args⟩, a, _, rfl, ha, b, _, rfl, hb, d, e, rfl, hd, he⟩
  · by_cases h2 : b ++ c ∈ twoWordTypes
    · obtain ⟨t, ht⟩ := twoWord_type h2
      exact ⟨⟨as, .type t, none, args⟩, a, _, rfl, ha, b ++ c, _, by simp, ht, d, e, rfl, hd, he⟩
    · exact ⟨⟨as, r, some i, args⟩, a, _, rfl, ha, b ++ c, _, by simp, ⟨b, c, rfl, hb, hc, h2⟩, d, e, rfl, hd, he⟩

theorem fills_callback : Fills (only (kind · = .callback) definition) callback := by
  rintro _ ⟨a, _, rfl, ha, b, _, rfl, hb, c, _, rfl, ⟨i, hc⟩, d, _, rfl, hd, e, _, rfl, ⟨r, he⟩, f, _, rfl, hf,
    g, _, rfl, ⟨args, hg⟩, h, j, rfl, hh, hj⟩
  obtain ⟨as, ha⟩ := attrs_ex ha
  refine ⟨.callback as i r args, rfl, ?_⟩
  simp only [definition, argumentList, parens, seq_assoc]
  exact ⟨a, _, rfl, ha, b, _, rfl, hb, c, _, rfl, hc, d, _, rfl, hd, e, _, rfl, he, f, _, rfl, hf,
    g, _, rfl, hg, h, j, rfl, hh, hj⟩

theorem fills_callbackInterface : Fills (only (kind · = .callbackInterface) definition) callbackInterface := by
  rintro _ ⟨a, _, rfl, ha, b, _, rfl, hb, c, _, rfl, hc, d, _, rfl, ⟨i, hd⟩, e, f, rfl, he, hf⟩
  obtain ⟨as, ha⟩ := attrs_ex ha
  obtain ⟨inh, he⟩ := optInheritance_ex he
  obtain ⟨ms, hf⟩ := members_ex hf
  exact ⟨.callbackInterface as i inh ms, rfl, a, _, rfl, ha, b, _, rfl, hb, c, _, rfl, hc, d, _, rfl, hd, e, f, rfl, he, hf⟩

theorem fills_interface : Fills (only (kind · = .interface) definition) interface := by
  rintro _ ⟨a, _, rfl, ha, b, _, rfl, hb, d, _, rfl, ⟨i, hd⟩, e, f, rfl, he, hf⟩
  obtain ⟨as, ha⟩ := attrs_ex ha
  obtain ⟨inh, he⟩ := optInheritance_ex he
  obtain ⟨ms, hf⟩ := members_ex hf
  exact ⟨.interface as i inh ms, rfl, a, _, rfl, ha, b, _, rfl, hb, d, _, rfl, hd, e, f, rfl, he, hf⟩

theorem fills_interfaceMixin : Fills (only (kind · = .interfaceMixin) definition) interfaceMixin := by
  rintro _ ⟨a, _, rfl, ha, b, _, rfl, hb, c, _, rfl, hc, d, f, rfl, ⟨i, hd⟩, hf⟩
  obtain ⟨as, ha⟩ := attrs_ex ha
  obtain ⟨ms, hf⟩ := members_ex hf
  exact ⟨.interfaceMixin as i ms, rfl, a, _, rfl, ha, b, _, rfl, hb, c, _, rfl, hc, d, f, rfl, hd, hf⟩

theorem fills_namespace : Fills (only (kind · = .namespace) definition) Pat.namespace := by
  rintro _ ⟨a, _, rfl, ha, b, _, rfl, hb, d, f, rfl, ⟨i, hd⟩, hf⟩
  obtain ⟨as, ha⟩ := attrs_ex ha
  obtain ⟨ms, hf⟩ := members_ex hf
  exact ⟨.namespace as i ms, rfl, a, _, rfl, ha, b, _, rfl, hb, d, f, rfl, hd, hf⟩

theorem fills_dictionary : Fills (only (kind · = .dictionary) definition) dictionary := by
  rintro _ ⟨a, _, rfl, ha, b, _, rfl, hb, d, _, rfl, ⟨i, hd⟩, e, f, rfl, he, hf⟩
  obtain ⟨as, ha⟩ := attrs_ex ha
  obtain ⟨inh, he⟩ := optInheritance_ex he
  obtain ⟨ms, hf⟩ := members_ex hf
  exact ⟨.dictionary as i inh ms, rfl, a, _, rfl, ha, b, _, rfl, hb, d, _, rfl, hd, e, f, rfl, he, hf⟩

theorem fills_partialInterface : Fills (only (kind · = .partialInterface) definition) partialInterface := by
  rintro _ ⟨a, _, rfl, ha, b, _, rfl, hb, c, _, rfl, hc, d, f, rfl, ⟨i, hd⟩, hf⟩
  obtain ⟨as, ha⟩ := attrs_ex ha
  obtain ⟨ms, hf⟩ := members_ex hf
  exact ⟨.partialInterface as i ms, rfl, a, _, rfl, ha, b, _, rfl, hb, c, _, rfl, hc, d, f, rfl, hd, hf⟩

theorem fills_partialInterfaceMixin :
    Fills (only (kind · = .partialInterfaceMixin) definition) partialInterfaceMixin := by
  rintro _ ⟨a, _, rfl, ha, b, _, rfl, hb, c, _, rfl, hc, e, _, rfl, he, d, f, rfl, ⟨i, hd⟩, hf⟩
  obtain ⟨as, ha⟩ := attrs_ex ha
  obtain ⟨ms, hf⟩ := members_ex hf
  exact ⟨.partialInterfaceMixin as i ms, rfl, a, _, rfl, ha, b, _, rfl, hb, c, _, rfl, hc, e, _, rfl, he, d, f, rfl, hd, hf⟩

theorem fills_partialDictionary : Fills (only (kind · = .partialDictionary) definition) partialDictionary := by
  rintro _ ⟨a, _, rfl, ha, b, _, rfl, hb, c, _, rfl, hc, d, f, rfl, ⟨i, hd⟩, hf⟩
  obtain ⟨as, ha⟩ := attrs_ex ha
  obtain ⟨ms, hf⟩ := members_ex hf
  exact ⟨.partialDictionary as i ms, rfl, a, _, rfl, ha, b, _, rfl, hb, c, _, rfl, hc, d, f, rfl, hd, hf⟩

theorem fills_partialNamespace : Fills (only (kind · = .partialNamespace) definition) partialNamespace := by
  rintro _ ⟨a, _, rfl, ha, b, _, rfl, hb, c, _, rfl, hc, d, f, rfl, ⟨i, hd⟩, hf⟩
  obtain ⟨as, ha⟩ := attrs_ex ha
  obtain ⟨ms, hf⟩ := members_ex hf
  exact ⟨.partialNamespace as i ms, rfl, a, _, rfl, ha, b, _, rfl, hb, c, _, rfl, hc, d, f, rfl, hd, hf⟩

theorem fills_enum : Fills (only (kind · = .enum) definition) Pat.enum := by
  rintro _ ⟨a, _, rfl, ha, b, _, rfl, hb, c, _, rfl, ⟨i, hc⟩, d, _, rfl, hd, e, _, rfl, ⟨vs, he⟩, f, g, rfl, hf, hg⟩
  obtain ⟨as, ha⟩ := attrs_ex ha
  refine ⟨.enum as i vs, rfl, ?_⟩
  simp only [definition, braces, seq_assoc]
  exact ⟨a, _, rfl, ha, b, _, rfl, hb, c, _, rfl, hc, d, _, rfl, hd, e, _, rfl, he, f, g, rfl, hf, hg⟩

theorem fills_includes : Fills includesAlone includes := by
  rintro _ ⟨a, _, rfl, ha, b, _, rfl, ⟨l, hb⟩, c, _, rfl, hc, d, e, rfl, ⟨r, hd⟩, he⟩
  obtain ⟨as, ha⟩ := attrs_ex ha
  exact ⟨.includesStatement as l r, a, _, rfl, ha, b, _, rfl, hb, c, _, rfl, hc, d, e, rfl, hd, he⟩

theorem fills_implements : Fills implementsAlone implements := by
  rintro _ ⟨a, _, rfl, ha, b, _, rfl, ⟨l, hb⟩, c, _, rfl, hc, d, e, rfl, ⟨r, hd⟩, he⟩
  obtain ⟨as, ha⟩ := attrs_ex ha
  exact ⟨.implements as l r, a, _, rfl, ha, b, _, rfl, hb, c, _, rfl, hc, d, e, rfl, hd, he⟩

theorem fills_sequence : Fills sequencePart sequence := by
  rintro _ ⟨a, _, rfl, ha, b, _, rfl, hb, c, d, rfl, ⟨t, hc⟩, hd⟩
  exact ⟨t, a, _, rfl, ha, b, _, rfl, hb, c, d, rfl, hc, hd⟩

theorem fills_frozenArray : Fills frozenArrayPart frozenArray := by
  rintro _ ⟨a, _, rfl, ha, b, _, rfl, hb, c, d, rfl, ⟨t, hc⟩, hd⟩
  exact ⟨t, a, _, rfl, ha, b, _, rfl, hb, c, d, rfl, hc, hd⟩

theorem fills_longLong : Fills (only (integerKind · = .longLong) Spec.integerType) longLong := by
  rintro _ ⟨a, _, rfl, ha, h⟩
  obtain ⟨u, ha⟩ := optTok_ex ha
  exact ⟨.longLong u, rfl, a, _, rfl, ha, h⟩

theorem fills_long : Fills (only (integerKind · = .long) Spec.integerType) long := by
  rintro _ ⟨a, _, rfl, ha, h⟩
  obtain ⟨u, ha⟩ := optTok_ex ha
  exact ⟨.long u, rfl, a, _, rfl, ha, h⟩

theorem fills_short : Fills (only (integerKind · = .short) Spec.integerType) short := by
  rintro _ ⟨a, _, rfl, ha, h⟩
  obtain ⟨u, ha⟩ := optTok_ex ha
  exact ⟨.short u, rfl, a, _, rfl, ha, h⟩

theorem fills_integerType : Fills Spec.integerType Pat.integerType := by
  rintro _ ⟨a, _, rfl, ha, h | h | h⟩ <;> obtain ⟨u, ha⟩ := optTok_ex ha
  · exact ⟨.short u, a, _, rfl, ha, h⟩
  · exact ⟨.long u, a, _, rfl, ha, h⟩
  · exact ⟨.longLong u, a, _, rfl, ha, h⟩

theorem fills_float : Fills (only (floatKind · = .float) Spec.floatingPointType) float := by
  rintro _ ⟨a, _, rfl, ha, h⟩
  obtain ⟨u, ha⟩ := optTok_ex ha
  exact ⟨.float u, rfl, a, _, rfl, ha, h⟩

theorem fills_double : Fills (only (floatKind · = .double) Spec.floatingPointType) double := by
  rintro _ ⟨a, _, rfl, ha, h⟩
  obtain ⟨u, ha⟩ := optTok_ex ha
  exact ⟨.double u, rfl, a, _, rfl, ha, h⟩

theorem fills_floatingPointType : Fills Spec.floatingPointType Pat.floatingPointType := by
  rintro _ ⟨a, _, rfl, ha, h | h⟩ <;> obtain ⟨u, ha⟩ := optTok_ex ha
  · exact ⟨.float u, a, _, rfl, ha, h⟩
  · exact ⟨.double u, a, _, rfl, ha, h⟩

theorem fills_record : Fills recordPart record := by
  rintro _ ⟨a, _, rfl, ha, b, _, rfl, hb, c, _, rfl, ⟨k, hc⟩, d, _, rfl, hd, e, f, rfl, ⟨v, he⟩, hf⟩
  refine ⟨(k, v), ?_⟩
  simp only [recordPart, angles, comma, seq_assoc]
  exact ⟨a, _, rfl, ha, b, _, rfl, hb, c, _, rfl, hc, d, _, rfl, hd, e, f, rfl, he, hf⟩

theorem fills_attributedType : Fills Spec.attributedType Pat.attributedType := by
  rintro _ ⟨a, b, rfl, ha, ⟨t, hb⟩⟩
  obtain ⟨as, ha⟩ := attrs_ex ha
  exact ⟨.mk as t, by simp only [Spec.attributedType]; exact ⟨a, b, rfl, ha, hb⟩⟩

theorem fills_attributedNonAnyType : Fills (only (∃ as t, · = .single as t) unionMember) attributedNonAnyType := by
  rintro _ ⟨a, b, rfl, ha, ⟨t, hb⟩⟩
  obtain ⟨as, ha⟩ := attrs_ex ha
  exact ⟨.single as t, ⟨as, t, rfl⟩, by simp only [unionMember]; exact ⟨a, b, rfl, ha, hb⟩⟩

end Verif.Documented
