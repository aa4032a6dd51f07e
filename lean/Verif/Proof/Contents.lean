import Verif.Spec.Contents
import Verif.Proof.Print

/-! # Where the items of a text are in the result -/

namespace Verif
open Nom Spec

theorem Spec.Accounts.append {vs us a b : List Str} (h : Accounts vs a) (h' : Accounts us b) : Accounts (vs ++ us) (a ++ b) := by
  induction h with
  | nil => exact h'
  | word hw _ ih => exact .word hw ih
  | contents hw _ ih => exact .contents hw ih

/-- Every spelling in `A` has the contents `vs`. -/
def Holds (A : Lang) (vs : List Str) : Prop := ∀ ls, A ls → Accounts vs ls

/-- Every spelling in `A` consists of words of the vocabulary. -/
abbrev Fixed (A : Lang) : Prop := Holds A []

theorem Fixed.tok {w : Str} (h : w ∈ vocabulary) : Fixed (tok w) := by
  rintro ls rfl
  exact .word h .nil

theorem Fixed.eps : Fixed eps := by
  rintro ls rfl
  exact .nil

theorem Fixed.optTok {b : Bool} {w : Str} (h : w ∈ vocabulary) : Fixed (optTok b w) := by
  cases b
  · exact .eps
  · exact .tok h

theorem Fixed.seq {A B : Lang} (ha : Fixed A) (hb : Fixed B) : Fixed (A ⨾ B) := by
  rintro _ ⟨a, b, rfl, h, h'⟩
  exact (ha a h).append (hb b h')

theorem Fixed.modifier (m : Option StringifierOrInheritOrStatic) : Fixed (modifier m) := by
  rcases m with _ | (_ | _ | _)
  · exact .eps
  all_goals exact .tok (by decide +kernel)

theorem Fixed.builtin (b : Builtin) : Fixed (Spec.tok (builtinWord b)) := by
  cases b <;> exact .tok (by decide +kernel)

theorem Fixed.integerType (t : IntegerType) : Fixed (integerType t) := by
  cases t with
  | longLong u => exact .seq (.optTok (by decide +kernel)) (.seq (.tok (by decide +kernel)) (.tok (by decide +kernel)))
  | long u => exact .seq (.optTok (by decide +kernel)) (.tok (by decide +kernel))
  | short u => exact .seq (.optTok (by decide +kernel)) (.tok (by decide +kernel))

theorem Fixed.floatingPointType (t : FloatingPointType) : Fixed (floatingPointType t) := by
  cases t <;> exact .seq (.optTok (by decide +kernel)) (.tok (by decide +kernel))

theorem Fixed.booleanLit (b : Bool) : Fixed (booleanLit b) := by
  cases b <;> exact .tok (by decide +kernel)

macro "fixed" : tactic => `(tactic| (repeat' first
  | exact Fixed.eps
  | exact Fixed.tok (by decide +kernel)
  | exact Fixed.optTok (by decide +kernel)
  | exact Fixed.modifier _
  | exact Fixed.builtin _
  | exact Fixed.integerType _
  | exact Fixed.floatingPointType _
  | exact Fixed.booleanLit _
  | apply Fixed.seq))

namespace Holds

variable {A B : Lang} {vs us : List Str}

theorem none (h : Fixed A := by fixed) : Holds A [] := h

theorem seq (ha : Holds A vs) (hb : Holds B us) : Holds (A ⨾ B) (vs ++ us) := by
  rintro _ ⟨a, b, rfl, h, h'⟩
  exact (ha a h).append (hb b h')

theorem left (ha : Holds A vs) (hb : Fixed B := by fixed) : Holds (A ⨾ B) vs := by
  simpa using seq ha hb

theorem right (hb : Holds B us) (ha : Fixed A := by fixed) : Holds (A ⨾ B) us := seq ha hb

theorem mid {w w' : Str} (ha : Holds A vs) (h : Fixed (tok w) := by fixed) (h' : Fixed (tok w') := by fixed) :
    Holds (tok w ⨾ A ⨾ tok w') vs := right (left ha h') h

theorem avoiding {ps : List (List Str)} (ha : Holds A vs) : Holds (avoiding ps A) vs := fun ls h => ha ls h.1

theorem name (i : Str) : Holds (Spec.name i) [i] := by
  rintro ls ⟨h, rfl | rfl⟩
  · exact .contents (.name h) .nil
  · exact .contents (.escaped h) .nil

theorem typeName (l : List Str) (i : Str) : Holds (Spec.typeName l i) [i] := by
  rintro ls ⟨h, ⟨rfl, _⟩ | rfl⟩
  · exact .contents (.name h) .nil
  · exact .contents (.escaped h) .nil

theorem string (v : Str) : Holds (Spec.string v) [v] := by
  rintro ls ⟨h, rfl⟩
  exact .contents (.string h) .nil

theorem literal {re : Regex} (hr : ∀ {v : Str}, re.Matches v → Numeral v) (v : Str) : Holds (Spec.literal re v) [v] := by
  rintro ls ⟨h, rfl⟩
  exact .contents (.number (hr h)) .nil

theorem named {i : Str} (ha : Holds A vs) : Holds (named A i) (vs ++ [i]) := by
  rintro _ ⟨a, b, rfl, h, h', _⟩
  exact (ha a h).append (name i b h')

theorem sepBy {sep : Lang} {α : Type} {L : α → Lang} {f : α → List Str} (hs : Fixed sep) : ∀ {l : List α},
    (∀ a ∈ l, Holds (L a) (f a)) → Holds (sepBy sep (l.map L)) (l.flatMap f)
  | [], _ => Fixed.eps
  | [a], h => by simpa [Spec.sepBy] using h a (by simp)
  | a :: b :: l, h => by
    have := sepBy (l := b :: l) (sep := sep) hs (fun c hc => h c (List.mem_cons_of_mem _ hc))
    exact seq (h a (by simp)) (right this hs)

theorem concat {α : Type} {L : α → Lang} {f : α → List Str} : ∀ {l : List α},
    (∀ a ∈ l, Holds (L a) (f a)) → Holds (concat (l.map L)) (l.flatMap f)
  | [], _ => Fixed.eps
  | a :: l, h => seq (h a (by simp)) (concat (l := l) (fun c hc => h c (List.mem_cons_of_mem _ hc)))

end Holds

theorem ho_integer (i : IntegerLit) : Holds (integerLit i) (stringsInteger i) := by
  cases i with
  | dec v => exact .literal (fun h => .inl h) v
  | hex v => exact .literal (fun h => .inr (.inl h)) v
  | oct v => exact .literal (fun h => .inr (.inr (.inl h))) v

theorem ho_float (f : FloatLit) : Holds (floatLit f) (stringsFloat f) := by
  cases f with
  | value v => exact .literal (fun h => .inr (.inr (.inr h))) v
  | negInfinity => exact Fixed.tok (by decide +kernel)
  | infinity => exact Fixed.tok (by decide +kernel)
  | nan => exact Fixed.tok (by decide +kernel)

theorem ho_defaultValue (d : DefaultValue) : Holds (defaultValue d) (stringsDefaultValue d) := by
  cases d with
  | float f => exact ho_float f
  | integer i => exact ho_integer i
  | string v => exact .string v
  | _ => exact .none

theorem ho_constValue (d : ConstValue) : Holds (constValue d) (stringsConstValue d) := by
  cases d with
  | float f => exact ho_float f
  | integer i => exact ho_integer i
  | _ => exact .none

theorem ho_default (d : Option DefaultValue) : Holds (Spec.default d) (stringsDefault d) := by
  cases d with
  | none => exact .none
  | some d => exact .right (ho_defaultValue d)

theorem ho_idOrString (x : IdentifierOrString) : Holds (identifierOrString x) (stringsIdentifierOrString x) := by
  cases x with
  | identifier i => exact .name i
  | string v => exact .string v

mutual

theorem ho_type : ∀ t, Holds (type t) (stringsType t)
  | .single t => by simp only [type, stringsType]; exact ho_singleType t
  | .union ms q => by simp only [type, stringsType]; exact .left (.mid (ho_unionMembers ms))

theorem ho_singleType : ∀ t, Holds (singleType t) (stringsSingleType t)
  | .any => by simp only [stringsSingleType]; exact .none
  | .nonAny t => by simp only [singleType, stringsSingleType]; exact .avoiding (ho_nonAnyType t)

theorem ho_nonAnyType : ∀ t, Holds (nonAnyType t) (stringsNonAnyType t)
  | .promise r => by simp only [nonAnyType, stringsNonAnyType]; exact .right (.mid (ho_returnType r))
  | .integer t q => by simp only [stringsNonAnyType]; exact .none
  | .floatingPoint t q => by simp only [stringsNonAnyType]; exact .none
  | .builtin t q => by simp only [stringsNonAnyType]; exact .none
  | .sequence t q => by simp only [nonAnyType, stringsNonAnyType]; exact .left (.right (.mid (ho_type t)))
  | .frozenArray t q => by simp only [nonAnyType, stringsNonAnyType]; exact .left (.right (.mid (ho_type t)))
  | .record k v q => by
    simp only [nonAnyType, stringsNonAnyType]
    exact .left (.right (.mid (.seq (ho_recordKeyType k) (.right (ho_type v)))))
  | .identifier i q => by simp only [nonAnyType, stringsNonAnyType]; exact .left (.typeName _ i)

theorem ho_recordKeyType : ∀ t, Holds (recordKeyType t) (stringsRecordKeyType t)
  | .byte => by simp only [stringsRecordKeyType]; exact .none
  | .dom => by simp only [stringsRecordKeyType]; exact .none
  | .usv => by simp only [stringsRecordKeyType]; exact .none
  | .nonAny t => by simp only [recordKeyType, stringsRecordKeyType]; exact .avoiding (ho_nonAnyType t)

theorem ho_unionMember : ∀ t, Holds (unionMember t) (stringsUnionMember t)
  | .single as t => by
    simp only [unionMember, stringsUnionMember]
    exact .seq (ho_attributes as) (ho_nonAnyType t)
  | .union ms q => by simp only [unionMember, stringsUnionMember]; exact .left (.mid (ho_unionMembers ms))

theorem ho_unionMembers : ∀ ms, Holds (sepBy (tok c!"or") (unionMembers ms)) (stringsUnionMembers ms)
  | [] => by simp only [stringsUnionMembers]; exact .none
  | [m] => by
    simp only [unionMembers, sepBy, stringsUnionMembers, List.append_nil]
    exact ho_unionMember m
  | m :: m' :: ms => by
    simp only [unionMembers, sepBy]
    rw [stringsUnionMembers]
    have := ho_unionMembers (m' :: ms)
    simp only [unionMembers] at this
    exact .seq (ho_unionMember m) (.right this)

theorem ho_returnType : ∀ t, Holds (returnType t) (stringsReturnType t)
  | .undefined => by simp only [stringsReturnType]; exact .none
  | .type t => by simp only [returnType, stringsReturnType]; exact .avoiding (ho_type t)

theorem ho_extAttr : ∀ t, Holds (extAttr t) (stringsExtAttr t)
  | .argList i args => by
    simp only [extAttr, stringsExtAttr]
    exact .seq (.name i) (.mid (ho_arguments args))
  | .namedArgList l r args => by
    simp only [extAttr, stringsExtAttr]
    exact .seq (.name l) (.right (.seq (.name r) (.mid (ho_arguments args))))
  | .identList i is => by
    simp only [extAttr, stringsExtAttr]
    have := Holds.sepBy (l := is) (sep := comma) (Fixed.tok (by decide +kernel)) fun j _ => Holds.name j
    simp only [List.flatMap_singleton'] at this
    exact .seq (.name i) (.right (.mid this))
  | .ident l r => by
    simp only [extAttr, stringsExtAttr]
    exact .seq (.name l) (.right (ho_idOrString r))
  | .wildcard l => by
    simp only [extAttr, stringsExtAttr]
    exact .left (.name l)
  | .noArgs i => by
    simp only [extAttr, stringsExtAttr]
    exact .name i

theorem ho_extAttrs : ∀ as, Holds (sepBy comma (extAttrs as)) (stringsExtAttrs as)
  | [] => by simp only [stringsExtAttrs]; exact .none
  | [m] => by
    simp only [extAttrs, sepBy, stringsExtAttrs, List.append_nil]
    exact ho_extAttr m
  | m :: m' :: ms => by
    simp only [extAttrs, sepBy]
    rw [stringsExtAttrs]
    have := ho_extAttrs (m' :: ms)
    simp only [extAttrs] at this
    exact .seq (ho_extAttr m) (.right this)

theorem ho_attributes : ∀ as, Holds (attributes as) (stringsAttributes as)
  | none => by simp only [stringsAttributes]; exact .none
  | some as => by simp only [attributes, stringsAttributes]; exact .mid (ho_extAttrs as)

theorem ho_argument : ∀ a, Holds (argument a) (stringsArgument a)
  | .single as true (.mk as' t) i d => by
    simp only [argument, stringsArgument, stringsAttributedType, namedAttributed, if_true, List.append_assoc]
    have := Holds.seq (.seq (ho_attributes as') (.named (i := i) (ho_type t))) (ho_default d)
    simp only [List.append_assoc] at this
    exact .seq (ho_attributes as) (.right this)
  | .single as false (.mk as' t) i d => by
    simp only [argument, stringsArgument, stringsAttributedType, namedAttributed, Bool.false_eq_true, if_false,
      List.append_assoc]
    refine .seq (ho_attributes as) ?_
    rintro b ⟨rfl, h, _⟩
    simp only [stringsDefault, List.append_nil]
    exact Holds.seq (ho_attributes as') (.named (i := i) (ho_type t)) b h
  | .variadic as t i => by
    simp only [argument, stringsArgument, List.append_assoc]
    exact .seq (ho_attributes as) (.seq (ho_type t) (.right (.name i)))

theorem ho_arguments : ∀ as, Holds (sepBy comma (arguments as)) (stringsArguments as)
  | [] => by simp only [stringsArguments]; exact .none
  | [m] => by
    simp only [arguments, sepBy, stringsArguments, List.append_nil]
    exact ho_argument m
  | m :: m' :: ms => by
    simp only [arguments, sepBy]
    rw [stringsArguments]
    have := ho_arguments (m' :: ms)
    simp only [arguments] at this
    exact .seq (ho_argument m) (.right this)

end

theorem ho_attributedType (t : AttributedType) : Holds (attributedType t) (stringsAttributedType t) := by
  cases t with
  | mk as t =>
    simp only [attributedType, stringsAttributedType]
    exact .seq (ho_attributes as) (ho_type t)

theorem ho_namedAttributed (t : AttributedType) (i : Str) :
    Holds (namedAttributed t i) (stringsAttributedType t ++ [i]) := by
  cases t with
  | mk as t =>
    simp only [namedAttributed, stringsAttributedType, List.append_assoc]
    exact .seq (ho_attributes as) (.named (ho_type t))

theorem ho_argumentList (as : List Argument) : Holds (argumentList as) (stringsArguments as) :=
  .mid (ho_arguments as)

theorem ho_optArgumentList (as : Option (List Argument)) :
    Holds (optArgumentList as) (stringsOptArguments as) := by
  cases as with
  | none => exact .none
  | some as => exact ho_argumentList as

theorem ho_constType (t : ConstType) : Holds (constType t) (stringsConstType t) := by
  cases t with
  | identifier i q => exact .left (.typeName _ i)
  | _ => exact .none

theorem ho_returnNamed (r : ReturnType) (i : Option Str) :
    Holds (returnNamed r i) (stringsReturnType r ++ i.toList) := by
  cases i with
  | none => simpa [returnNamed] using ho_returnType r
  | some i => exact .named (ho_returnType r)

theorem ho_const (m : ConstMember) : Holds (constMember m) (stringsConst m) := by
  simp only [stringsConst, List.append_assoc]
  have := Holds.seq (ho_attributes m.attributes) (.right (A := tok c!"const") (.seq (.named (i := m.identifier)
    (ho_constType m.constType)) (.right (A := tok c!"=") (.left (B := tok c!";") (ho_constValue m.constValue)))))
  simp only [List.append_assoc] at this
  exact this

theorem ho_operation (r : ReturnType) (i : Option Str) (as : List Argument) :
    Holds (returnNamed r i ⨾ argumentList as ⨾ tok c!";")
      (stringsReturnType r ++ i.toList ++ stringsArguments as) :=
  .seq (ho_returnNamed r i) (.left (ho_argumentList as))

theorem ho_modified {m : Option StringifierOrStatic} {A : Lang} {vs : List Str} (h : Holds A vs) :
    Holds (modified m A) vs := by
  rcases m with _ | (_ | _)
  · exact .avoiding h
  · exact .right h
  · exact .right h

theorem ho_specialised {m : Option Special} {A : Lang} {vs : List Str} (h : Holds A vs) :
    Holds (specialised m A) vs := by
  rcases m with _ | (_ | _ | _ | _)
  · exact .avoiding h
  · exact .right h
  · exact .right h
  · exact .right h
  · exact .right h

theorem ho_optWord {b : Bool} {w : Str} {A : Lang} {vs : List Str} (h : Holds A vs) (hw : Fixed (tok w) := by fixed) :
    Holds (optWord b w A) vs := by
  cases b
  · exact .avoiding h
  · exact .right h hw

theorem ho_typePair (p : AttributedType × AttributedType) : Holds (typePair p) (stringsTypePair p) :=
  .seq (ho_attributedType _) (.right (ho_attributedType _))

theorem ho_attribute {A : Lang} (as : Attrs) (t : AttributedType) (i : Str)
    (h : Holds A (stringsAttributedType t ++ [i])) :
    Holds (attributes as ⨾ A) (stringsAttribute as t i) := by
  simp only [stringsAttribute, List.append_assoc]
  exact .seq (ho_attributes as) h

theorem ho_op {A : Lang} (as : Attrs) (r : ReturnType) (i : Option Str) (args : List Argument)
    (h : Holds A (stringsReturnType r ++ i.toList ++ stringsArguments args)) :
    Holds (attributes as ⨾ A) (stringsOperation as r i args) := by
  simp only [stringsOperation, List.append_assoc]
  simp only [List.append_assoc] at h
  exact .seq (ho_attributes as) h

theorem ho_interfaceMember (m : InterfaceMember) : Holds (interfaceMember m) (stringsInterfaceMember m) := by
  match m with
  | .const m => exact ho_const m
  | .attribute m =>
    exact ho_attribute _ _ _ (.right (.right (.right (.left (ho_namedAttributed _ _)))))
  | .constructor m => exact .seq (ho_attributes _) (.right (.left (ho_argumentList _)))
  | .operation m => exact ho_op _ _ _ _ (.avoiding (ho_modified (ho_specialised (ho_operation _ _ _))))
  | .iterable (.single as t) => exact .seq (ho_attributes _) (.right (.left (.mid (ho_attributedType _))))
  | .iterable (.double as t) => exact .seq (ho_attributes _) (.right (.left (.mid (ho_typePair _))))
  | .asyncIterable (.single as t args) =>
    simp only [stringsInterfaceMember, List.append_assoc]
    exact .seq (ho_attributes _) (.right (.right (.seq (.mid (ho_attributedType _)) (.left (ho_optArgumentList _)))))
  | .asyncIterable (.double as t args) =>
    simp only [stringsInterfaceMember, List.append_assoc]
    exact .seq (ho_attributes _) (.right (.right (.seq (.mid (ho_typePair _)) (.left (ho_optArgumentList _)))))
  | .maplike m => exact .seq (ho_attributes _) (.right (.right (.left (.mid (ho_typePair _)))))
  | .setlike m => exact .seq (ho_attributes _) (.right (.right (.left (.mid (ho_attributedType _)))))
  | .stringifier m => exact .left (ho_attributes _)

theorem ho_mixinMember (m : MixinMember) : Holds (mixinMember m) (stringsMixinMember m) := by
  match m with
  | .const m => exact ho_const m
  | .operation m => exact ho_op _ _ _ _ (ho_optWord (ho_operation _ _ _))
  | .attribute m => exact ho_attribute _ _ _ (.right (.right (.right (.left (ho_namedAttributed _ _)))))
  | .stringifier m => exact .left (ho_attributes _)

theorem ho_namespaceMember (m : NamespaceMember) : Holds (namespaceMember m) (stringsNamespaceMember m) := by
  match m with
  | .const m => exact ho_const m
  | .operation m => exact ho_op _ _ _ _ (ho_operation _ _ _)
  | .attribute m => exact ho_attribute _ _ _ (.right (.right (.left (ho_namedAttributed _ _))))

theorem ho_dictionaryMember (m : DictionaryMember) :
    Holds (dictionaryMember m) (stringsDictionaryMember m) := by
  simp only [stringsDictionaryMember, List.append_assoc]
  have := Holds.seq (ho_attributes m.attributes) (ho_optWord (b := m.required) (w := c!"required")
    (.seq (.named (i := m.identifier) (ho_type m.type_)) (.left (B := tok c!";") (ho_default m.default))))
  simp only [List.append_assoc] at this
  exact this

theorem ho_inheritance (i : Option Str) : Holds (inheritance i) i.toList := by
  cases i with
  | none => exact .none
  | some i => exact .right (.name i)

theorem ho_body {α : Type} {L : α → Lang} {f : α → List Str} {ms : List α} (h : ∀ m, Holds (L m) (f m)) :
    Holds (body L ms) (ms.flatMap f) :=
  .left (.mid (.concat fun m _ => h m))

theorem ho_whole {α : Type} {f : α → List Str} {A : Lang} {as : Attrs} {i : Str} {inh : Option Str}
    {ms : List α} (ha : Holds A ([i] ++ inh.toList ++ ms.flatMap f)) :
    Holds (attributes as ⨾ A) (stringsBody f as i inh ms) := by
  simp only [stringsBody, List.append_assoc]
  simp only [List.append_assoc] at ha
  exact .seq (ho_attributes as) ha

theorem ho_derived {α : Type} {L : α → Lang} {f : α → List Str} (h : ∀ m, Holds (L m) (f m)) (i : Str)
    (inh : Option Str) (ms : List α) :
    Holds (name i ⨾ inheritance inh ⨾ body L ms) ([i] ++ inh.toList ++ ms.flatMap f) := by
  simp only [List.append_assoc]
  exact .seq (.name i) (.seq (ho_inheritance inh) (ho_body h))

theorem ho_plain {α : Type} {L : α → Lang} {f : α → List Str} (h : ∀ m, Holds (L m) (f m)) (i : Str)
    (ms : List α) : Holds (name i ⨾ body L ms) ([i] ++ (none : Option Str).toList ++ ms.flatMap f) := by
  simp only [Option.toList_none, List.append_nil]
  exact .seq (.name i) (ho_body h)

theorem ho_definition (d : Definition) : Holds (definition d) (stringsDefinition d) := by
  match d with
  | .callback as i r args =>
    simp only [stringsDefinition, List.append_assoc]
    exact .seq (ho_attributes _) (.right (.seq (.name i) (.right (.seq (ho_returnType r) (.left (ho_argumentList _))))))
  | .callbackInterface as i inh ms =>
    exact ho_whole (.right (.right (ho_derived ho_interfaceMember i inh ms)))
  | .interface as i inh ms =>
    exact ho_whole (.right (ho_derived ho_interfaceMember i inh ms))
  | .interfaceMixin as i ms =>
    exact ho_whole (.right (.right (ho_plain ho_mixinMember i ms)))
  | .namespace as i ms => exact ho_whole (.right (ho_plain ho_namespaceMember i ms))
  | .dictionary as i inh ms =>
    exact ho_whole (.right (ho_derived ho_dictionaryMember i inh ms))
  | .partialInterface as i ms =>
    exact ho_whole (.right (.right (ho_plain ho_interfaceMember i ms)))
  | .partialInterfaceMixin as i ms =>
    exact ho_whole (.right (.right (.right (ho_plain ho_mixinMember i ms))))
  | .partialDictionary as i ms =>
    exact ho_whole (.right (.right (ho_plain ho_dictionaryMember i ms)))
  | .partialNamespace as i ms =>
    exact ho_whole (.right (.right (ho_plain ho_namespaceMember i ms)))
  | .enum as i vs =>
    have hv : Holds (enumValues vs) vs := by
      rintro ls ⟨hv, c, h⟩
      have := Holds.sepBy (l := vs) (sep := comma) (Fixed.tok (by decide +kernel)) fun j _ => Holds.string j
      simp only [List.flatMap_singleton'] at this
      exact Holds.left this (by fixed) ls h
    simp only [stringsDefinition, List.append_assoc]
    exact .seq (ho_attributes _) (.right (.seq (.name i) (.left (.mid hv))))
  | .typedef as t i => exact ho_attribute _ _ _ (.right (.left (ho_namedAttributed _ _)))
  | .includesStatement as l r =>
    exact .seq (ho_attributes _) (.seq (.avoiding (.name l)) (.right (.left (.name r))))
  | .implements as l r =>
    exact .seq (ho_attributes _) (.seq (.avoiding (.name l)) (.right (.left (.name r))))

theorem ho_definitions (ds : List Definition) : Holds (definitions ds) (strings ds) :=
  .concat fun d _ => ho_definition d

end Verif
