import Verif.Spec.Collect
import Verif.Proof.Print

/-!
# Strings and arguments of parsed documents
-/

namespace Verif
open Nom Spec

/-! ## Strings -/

/-- `vs` are parts of lexemes of `ls`, in order. -/
inductive Picks : List Str → List Str → Prop where
  | nil {ls : List Str} : Picks [] ls
  | skip {vs ls : List Str} {w : Str} (h : Picks vs ls) : Picks vs (w :: ls)
  | take {vs ls : List Str} {v w : Str} (hv : v <:+: w) (h : Picks vs ls) : Picks (v :: vs) (w :: ls)

theorem Picks.prepend {vs b : List Str} (a : List Str) (h : Picks vs b) : Picks vs (a ++ b) := by
  induction a with
  | nil => exact h
  | cons x a ih => exact .skip ih

theorem Picks.append {vs us a b : List Str} (h : Picks vs a) (h' : Picks us b) : Picks (vs ++ us) (a ++ b) := by
  induction h with
  | nil => exact h'.prepend _
  | skip _ ih => exact .skip ih
  | take hv _ ih => exact .take hv ih

theorem Spec.InOrder.prepend {vs : List Str} {s : Str} (a : Str) (h : InOrder vs s) : InOrder vs (a ++ s) := by
  cases h with
  | nil => exact .nil
  | @cons v vs a' b h =>
    have := InOrder.cons (v := v) (a := a ++ a') h
    simpa only [List.append_assoc] using this

theorem Picks.inOrder {vs ls : List Str} {s : Str} (h : Picks vs ls) (ht : Text ls s) : InOrder vs s := by
  induction h generalizing s with
  | nil => exact .nil
  | skip _ ih =>
    cases ht with
    | cons h1 h2 h3 => exact ((ih h2).prepend _).prepend _
  | @take _ _ v _ hv _ ih =>
    cases ht with
    | @cons _ _ t _ h1 h2 h3 =>
      obtain ⟨a, b, rfl⟩ := hv
      have := InOrder.cons (v := v) (a := a) (((ih h2).prepend t).prepend b)
      simpa only [List.append_assoc] using this

/-- Every spelling in `A` contains `vs`. -/
def Slices (A : Lang) (vs : List Str) : Prop := ∀ ls, A ls → Picks vs ls

namespace Slices

variable {A B : Lang} {vs us : List Str}

theorem none : Slices A [] := fun _ _ => .nil

theorem seq (ha : Slices A vs) (hb : Slices B us) : Slices (A ⨾ B) (vs ++ us) := by
  rintro _ ⟨a, b, rfl, h, h'⟩
  exact (ha a h).append (hb b h')

theorem left (ha : Slices A vs) : Slices (A ⨾ B) vs := by
  simpa using seq ha (none (A := B))

theorem right (hb : Slices B us) : Slices (A ⨾ B) us := by
  simpa using seq (none (A := A)) hb

theorem mid {w w' : Str} (ha : Slices A vs) : Slices (tok w ⨾ A ⨾ tok w') vs := right (left ha)

theorem avoiding {ps : List (List Str)} (ha : Slices A vs) : Slices (avoiding ps A) vs := fun ls h => ha ls h.1

theorem name (i : Str) : Slices (Spec.name i) [i] := by
  rintro ls ⟨_, rfl | rfl⟩
  · exact .take ⟨[], [], by simp⟩ .nil
  · exact .take ⟨['_'], [], by simp⟩ .nil

theorem typeName (l : List Str) (i : Str) : Slices (Spec.typeName l i) [i] := by
  rintro ls ⟨_, ⟨rfl, _⟩ | rfl⟩
  · exact .take ⟨[], [], by simp⟩ .nil
  · exact .take ⟨['_'], [], by simp⟩ .nil

theorem string (v : Str) : Slices (Spec.string v) [v] := by
  rintro ls ⟨_, rfl⟩
  exact .take ⟨['"'], ['"'], by simp⟩ .nil

theorem literal (re : Regex) (v : Str) : Slices (Spec.literal re v) [v] := by
  rintro ls ⟨_, rfl⟩
  exact .take ⟨[], [], by simp⟩ .nil

theorem named {i : Str} (ha : Slices A vs) : Slices (named A i) (vs ++ [i]) := by
  rintro _ ⟨a, b, rfl, h, h', _⟩
  exact (ha a h).append (name i b h')

theorem sepBy {sep : Lang} {α : Type} {L : α → Lang} {f : α → List Str} : ∀ {l : List α},
    (∀ a ∈ l, Slices (L a) (f a)) → Slices (sepBy sep (l.map L)) (l.flatMap f)
  | [], _ => none
  | [a], h => by simpa [Spec.sepBy] using h a (by simp)
  | a :: b :: l, h => by
    have := sepBy (l := b :: l) (sep := sep) (fun c hc => h c (List.mem_cons_of_mem _ hc))
    exact seq (h a (by simp)) (right this)

theorem concat {α : Type} {L : α → Lang} {f : α → List Str} : ∀ {l : List α},
    (∀ a ∈ l, Slices (L a) (f a)) → Slices (concat (l.map L)) (l.flatMap f)
  | [], _ => none
  | a :: l, h => seq (h a (by simp)) (concat (l := l) (fun c hc => h c (List.mem_cons_of_mem _ hc)))

end Slices

theorem sl_integer (i : IntegerLit) : Slices (integerLit i) (stringsInteger i) := by
  cases i <;> exact .literal _ _

theorem sl_float (f : FloatLit) : Slices (floatLit f) (stringsFloat f) := by
  cases f <;> first | exact .literal _ _ | exact .none

theorem sl_defaultValue (d : DefaultValue) : Slices (defaultValue d) (stringsDefaultValue d) := by
  cases d with
  | float f => exact sl_float f
  | integer i => exact sl_integer i
  | string v => exact .string v
  | _ => exact .none

theorem sl_constValue (d : ConstValue) : Slices (constValue d) (stringsConstValue d) := by
  cases d with
  | float f => exact sl_float f
  | integer i => exact sl_integer i
  | _ => exact .none

theorem sl_default (d : Option DefaultValue) : Slices (Spec.default d) (stringsDefault d) := by
  cases d with
  | none => exact .none
  | some d => exact .right (sl_defaultValue d)

theorem sl_idOrString (x : IdentifierOrString) : Slices (identifierOrString x) (stringsIdentifierOrString x) := by
  cases x with
  | identifier i => exact .name i
  | string v => exact .string v

mutual

theorem sl_type : ∀ t, Slices (type t) (stringsType t)
  | .single t => by simp only [type, stringsType]; exact sl_singleType t
  | .union ms q => by simp only [type, stringsType]; exact .left (.mid (sl_unionMembers ms))

theorem sl_singleType : ∀ t, Slices (singleType t) (stringsSingleType t)
  | .any => by simp only [stringsSingleType]; exact .none
  | .nonAny t => by simp only [singleType, stringsSingleType]; exact .avoiding (sl_nonAnyType t)

theorem sl_nonAnyType : ∀ t, Slices (nonAnyType t) (stringsNonAnyType t)
  | .promise r => by simp only [nonAnyType, stringsNonAnyType]; exact .right (.mid (sl_returnType r))
  | .integer t q => by simp only [stringsNonAnyType]; exact .none
  | .floatingPoint t q => by simp only [stringsNonAnyType]; exact .none
  | .builtin t q => by simp only [stringsNonAnyType]; exact .none
  | .sequence t q => by simp only [nonAnyType, stringsNonAnyType]; exact .left (.right (.mid (sl_type t)))
  | .frozenArray t q => by simp only [nonAnyType, stringsNonAnyType]; exact .left (.right (.mid (sl_type t)))
  | .record k v q => by
    simp only [nonAnyType, stringsNonAnyType]
    exact .left (.right (.mid (.seq (sl_recordKeyType k) (.right (sl_type v)))))
  | .identifier i q => by simp only [nonAnyType, stringsNonAnyType]; exact .left (.typeName _ i)

theorem sl_recordKeyType : ∀ t, Slices (recordKeyType t) (stringsRecordKeyType t)
  | .byte => by simp only [stringsRecordKeyType]; exact .none
  | .dom => by simp only [stringsRecordKeyType]; exact .none
  | .usv => by simp only [stringsRecordKeyType]; exact .none
  | .nonAny t => by simp only [recordKeyType, stringsRecordKeyType]; exact .avoiding (sl_nonAnyType t)

theorem sl_unionMember : ∀ t, Slices (unionMember t) (stringsUnionMember t)
  | .single as t => by
    simp only [unionMember, stringsUnionMember]
    exact .seq (sl_attributes as) (sl_nonAnyType t)
  | .union ms q => by simp only [unionMember, stringsUnionMember]; exact .left (.mid (sl_unionMembers ms))

theorem sl_unionMembers : ∀ ms, Slices (sepBy (tok c!"or") (unionMembers ms)) (stringsUnionMembers ms)
  | [] => by simp only [stringsUnionMembers]; exact .none
  | [m] => by
    simp only [unionMembers, sepBy, stringsUnionMembers, List.append_nil]
    exact sl_unionMember m
  | m :: m' :: ms => by
    simp only [unionMembers, sepBy]
    rw [stringsUnionMembers]
    have := sl_unionMembers (m' :: ms)
    simp only [unionMembers] at this
    exact .seq (sl_unionMember m) (.right this)

theorem sl_returnType : ∀ t, Slices (returnType t) (stringsReturnType t)
  | .undefined => by simp only [stringsReturnType]; exact .none
  | .type t => by simp only [returnType, stringsReturnType]; exact .avoiding (sl_type t)

theorem sl_extAttr : ∀ t, Slices (extAttr t) (stringsExtAttr t)
  | .argList i args => by
    simp only [extAttr, stringsExtAttr]
    exact .seq (.name i) (.mid (sl_arguments args))
  | .namedArgList l r args => by
    simp only [extAttr, stringsExtAttr]
    exact .seq (.name l) (.right (.seq (.name r) (.mid (sl_arguments args))))
  | .identList i is => by
    simp only [extAttr, stringsExtAttr]
    have := Slices.sepBy (l := is) (sep := comma) fun j _ => Slices.name j
    simp only [List.flatMap_singleton'] at this
    exact .seq (.name i) (.right (.mid this))
  | .ident l r => by
    simp only [extAttr, stringsExtAttr]
    exact .seq (.name l) (.right (sl_idOrString r))
  | .wildcard l => by
    simp only [extAttr, stringsExtAttr]
    exact .left (.name l)
  | .noArgs i => by
    simp only [extAttr, stringsExtAttr]
    exact .name i

theorem sl_extAttrs : ∀ as, Slices (sepBy comma (extAttrs as)) (stringsExtAttrs as)
  | [] => by simp only [stringsExtAttrs]; exact .none
  | [m] => by
    simp only [extAttrs, sepBy, stringsExtAttrs, List.append_nil]
    exact sl_extAttr m
  | m :: m' :: ms => by
    simp only [extAttrs, sepBy]
    rw [stringsExtAttrs]
    have := sl_extAttrs (m' :: ms)
    simp only [extAttrs] at this
    exact .seq (sl_extAttr m) (.right this)

theorem sl_attributes : ∀ as, Slices (attributes as) (stringsAttributes as)
  | none => by simp only [stringsAttributes]; exact .none
  | some as => by simp only [attributes, stringsAttributes]; exact .mid (sl_extAttrs as)

theorem sl_argument : ∀ a, Slices (argument a) (stringsArgument a)
  | .single as true (.mk as' t) i d => by
    simp only [argument, stringsArgument, stringsAttributedType, namedAttributed, if_true, List.append_assoc]
    have := Slices.seq (.seq (sl_attributes as') (.named (i := i) (sl_type t))) (sl_default d)
    simp only [List.append_assoc] at this
    exact .seq (sl_attributes as) (.right this)
  | .single as false (.mk as' t) i d => by
    simp only [argument, stringsArgument, stringsAttributedType, namedAttributed, Bool.false_eq_true, if_false,
      List.append_assoc]
    refine .seq (sl_attributes as) ?_
    rintro b ⟨rfl, h, _⟩
    simp only [stringsDefault, List.append_nil]
    exact Slices.seq (sl_attributes as') (.named (i := i) (sl_type t)) b h
  | .variadic as t i => by
    simp only [argument, stringsArgument, List.append_assoc]
    exact .seq (sl_attributes as) (.seq (sl_type t) (.right (.name i)))

theorem sl_arguments : ∀ as, Slices (sepBy comma (arguments as)) (stringsArguments as)
  | [] => by simp only [stringsArguments]; exact .none
  | [m] => by
    simp only [arguments, sepBy, stringsArguments, List.append_nil]
    exact sl_argument m
  | m :: m' :: ms => by
    simp only [arguments, sepBy]
    rw [stringsArguments]
    have := sl_arguments (m' :: ms)
    simp only [arguments] at this
    exact .seq (sl_argument m) (.right this)

end

theorem sl_attributedType (t : AttributedType) : Slices (attributedType t) (stringsAttributedType t) := by
  cases t with
  | mk as t =>
    simp only [attributedType, stringsAttributedType]
    exact .seq (sl_attributes as) (sl_type t)

theorem sl_namedAttributed (t : AttributedType) (i : Str) :
    Slices (namedAttributed t i) (stringsAttributedType t ++ [i]) := by
  cases t with
  | mk as t =>
    simp only [namedAttributed, stringsAttributedType, List.append_assoc]
    exact .seq (sl_attributes as) (.named (sl_type t))

theorem sl_argumentList (as : List Argument) : Slices (argumentList as) (stringsArguments as) :=
  .mid (sl_arguments as)

theorem sl_optArgumentList (as : Option (List Argument)) :
    Slices (optArgumentList as) (stringsOptArguments as) := by
  cases as with
  | none => exact .none
  | some as => exact sl_argumentList as

theorem sl_constType (t : ConstType) : Slices (constType t) (stringsConstType t) := by
  cases t with
  | identifier i q => exact .left (.typeName _ i)
  | _ => exact .none

theorem sl_returnNamed (r : ReturnType) (i : Option Str) :
    Slices (returnNamed r i) (stringsReturnType r ++ i.toList) := by
  cases i with
  | none => simpa [returnNamed] using sl_returnType r
  | some i => exact .named (sl_returnType r)

theorem sl_const (m : ConstMember) : Slices (constMember m) (stringsConst m) := by
  simp only [stringsConst, List.append_assoc]
  have := Slices.seq (sl_attributes m.attributes) (.right (A := tok c!"const") (.seq (.named (i := m.identifier)
    (sl_constType m.constType)) (.right (A := tok c!"=") (.left (B := tok c!";") (sl_constValue m.constValue)))))
  simp only [List.append_assoc] at this
  exact this

theorem sl_operation (r : ReturnType) (i : Option Str) (as : List Argument) :
    Slices (returnNamed r i ⨾ argumentList as ⨾ tok c!";")
      (stringsReturnType r ++ i.toList ++ stringsArguments as) :=
  .seq (sl_returnNamed r i) (.left (sl_argumentList as))

theorem sl_modified {m : Option StringifierOrStatic} {A : Lang} {vs : List Str} (h : Slices A vs) :
    Slices (modified m A) vs := by
  rcases m with _ | (_ | _)
  · exact .avoiding h
  · exact .right h
  · exact .right h

theorem sl_specialised {m : Option Special} {A : Lang} {vs : List Str} (h : Slices A vs) :
    Slices (specialised m A) vs := by
  rcases m with _ | (_ | _ | _ | _)
  · exact .avoiding h
  · exact .right h
  · exact .right h
  · exact .right h
  · exact .right h

theorem sl_optWord {b : Bool} {w : Str} {A : Lang} {vs : List Str} (h : Slices A vs) :
    Slices (optWord b w A) vs := by
  cases b
  · exact .avoiding h
  · exact .right h

theorem sl_typePair (p : AttributedType × AttributedType) : Slices (typePair p) (stringsTypePair p) :=
  .seq (sl_attributedType _) (.right (sl_attributedType _))

theorem sl_attribute {A : Lang} (as : Attrs) (t : AttributedType) (i : Str)
    (h : Slices A (stringsAttributedType t ++ [i])) :
    Slices (attributes as ⨾ A) (stringsAttribute as t i) := by
  simp only [stringsAttribute, List.append_assoc]
  exact .seq (sl_attributes as) h

theorem sl_op {A : Lang} (as : Attrs) (r : ReturnType) (i : Option Str) (args : List Argument)
    (h : Slices A (stringsReturnType r ++ i.toList ++ stringsArguments args)) :
    Slices (attributes as ⨾ A) (stringsOperation as r i args) := by
  simp only [stringsOperation, List.append_assoc]
  simp only [List.append_assoc] at h
  exact .seq (sl_attributes as) h

theorem sl_interfaceMember (m : InterfaceMember) : Slices (interfaceMember m) (stringsInterfaceMember m) := by
  match m with
  | .const m => exact sl_const m
  | .attribute m =>
    exact sl_attribute _ _ _ (.right (.right (.right (.left (sl_namedAttributed _ _)))))
  | .constructor m => exact .seq (sl_attributes _) (.right (.left (sl_argumentList _)))
  | .operation m => exact sl_op _ _ _ _ (.avoiding (sl_modified (sl_specialised (sl_operation _ _ _))))
  | .iterable (.single as t) => exact .seq (sl_attributes _) (.right (.left (.mid (sl_attributedType _))))
  | .iterable (.double as t) => exact .seq (sl_attributes _) (.right (.left (.mid (sl_typePair _))))
  | .asyncIterable (.single as t args) =>
    simp only [stringsInterfaceMember, List.append_assoc]
    exact .seq (sl_attributes _) (.right (.right (.seq (.mid (sl_attributedType _)) (.left (sl_optArgumentList _)))))
  | .asyncIterable (.double as t args) =>
    simp only [stringsInterfaceMember, List.append_assoc]
    exact .seq (sl_attributes _) (.right (.right (.seq (.mid (sl_typePair _)) (.left (sl_optArgumentList _)))))
  | .maplike m => exact .seq (sl_attributes _) (.right (.right (.left (.mid (sl_typePair _)))))
  | .setlike m => exact .seq (sl_attributes _) (.right (.right (.left (.mid (sl_attributedType _)))))
  | .stringifier m => exact .left (sl_attributes _)

theorem sl_mixinMember (m : MixinMember) : Slices (mixinMember m) (stringsMixinMember m) := by
  match m with
  | .const m => exact sl_const m
  | .operation m => exact sl_op _ _ _ _ (sl_optWord (sl_operation _ _ _))
  | .attribute m => exact sl_attribute _ _ _ (.right (.right (.right (.left (sl_namedAttributed _ _)))))
  | .stringifier m => exact .left (sl_attributes _)

theorem sl_namespaceMember (m : NamespaceMember) : Slices (namespaceMember m) (stringsNamespaceMember m) := by
  match m with
  | .const m => exact sl_const m
  | .operation m => exact sl_op _ _ _ _ (sl_operation _ _ _)
  | .attribute m => exact sl_attribute _ _ _ (.right (.right (.left (sl_namedAttributed _ _))))

theorem sl_dictionaryMember (m : DictionaryMember) :
    Slices (dictionaryMember m) (stringsDictionaryMember m) := by
  simp only [stringsDictionaryMember, List.append_assoc]
  have := Slices.seq (sl_attributes m.attributes) (sl_optWord (b := m.required) (w := c!"required")
    (.seq (.named (i := m.identifier) (sl_type m.type_)) (.left (B := tok c!";") (sl_default m.default))))
  simp only [List.append_assoc] at this
  exact this

theorem sl_inheritance (i : Option Str) : Slices (inheritance i) i.toList := by
  cases i with
  | none => exact .none
  | some i => exact .right (.name i)

theorem sl_body {α : Type} {L : α → Lang} {f : α → List Str} {ms : List α} (h : ∀ m, Slices (L m) (f m)) :
    Slices (body L ms) (ms.flatMap f) :=
  .left (.mid (.concat fun m _ => h m))

theorem sl_whole {α : Type} {f : α → List Str} {A : Lang} {as : Attrs} {i : Str} {inh : Option Str}
    {ms : List α} (ha : Slices A ([i] ++ inh.toList ++ ms.flatMap f)) :
    Slices (attributes as ⨾ A) (stringsBody f as i inh ms) := by
  simp only [stringsBody, List.append_assoc]
  simp only [List.append_assoc] at ha
  exact .seq (sl_attributes as) ha

theorem sl_derived {α : Type} {L : α → Lang} {f : α → List Str} (h : ∀ m, Slices (L m) (f m)) (i : Str)
    (inh : Option Str) (ms : List α) :
    Slices (name i ⨾ inheritance inh ⨾ body L ms) ([i] ++ inh.toList ++ ms.flatMap f) := by
  simp only [List.append_assoc]
  exact .seq (.name i) (.seq (sl_inheritance inh) (sl_body h))

theorem sl_plain {α : Type} {L : α → Lang} {f : α → List Str} (h : ∀ m, Slices (L m) (f m)) (i : Str)
    (ms : List α) : Slices (name i ⨾ body L ms) ([i] ++ (none : Option Str).toList ++ ms.flatMap f) := by
  simp only [Option.toList_none, List.append_nil]
  exact .seq (.name i) (sl_body h)

theorem sl_definition (d : Definition) : Slices (definition d) (stringsDefinition d) := by
  match d with
  | .callback as i r args =>
    simp only [stringsDefinition, List.append_assoc]
    exact .seq (sl_attributes _) (.right (.seq (.name i) (.right (.seq (sl_returnType r) (.left (sl_argumentList _))))))
  | .callbackInterface as i inh ms =>
    exact sl_whole (.right (.right (sl_derived sl_interfaceMember i inh ms)))
  | .interface as i inh ms =>
    exact sl_whole (.right (sl_derived sl_interfaceMember i inh ms))
  | .interfaceMixin as i ms =>
    exact sl_whole (.right (.right (sl_plain sl_mixinMember i ms)))
  | .namespace as i ms => exact sl_whole (.right (sl_plain sl_namespaceMember i ms))
  | .dictionary as i inh ms =>
    exact sl_whole (.right (sl_derived sl_dictionaryMember i inh ms))
  | .partialInterface as i ms =>
    exact sl_whole (.right (.right (sl_plain sl_interfaceMember i ms)))
  | .partialInterfaceMixin as i ms =>
    exact sl_whole (.right (.right (.right (sl_plain sl_mixinMember i ms))))
  | .partialDictionary as i ms =>
    exact sl_whole (.right (.right (sl_plain sl_dictionaryMember i ms)))
  | .partialNamespace as i ms =>
    exact sl_whole (.right (.right (sl_plain sl_namespaceMember i ms)))
  | .enum as i vs =>
    have hv : Slices (enumValues vs) vs := by
      rintro ls ⟨hv, c, h⟩
      have := Slices.sepBy (l := vs) (sep := comma) fun j _ => Slices.string j
      simp only [List.flatMap_singleton'] at this
      exact Slices.left this ls h
    simp only [stringsDefinition, List.append_assoc]
    exact .seq (sl_attributes _) (.right (.seq (.name i) (.left (.mid hv))))
  | .typedef as t i => exact sl_attribute _ _ _ (.right (.left (sl_namedAttributed _ _)))
  | .includesStatement as l r =>
    exact .seq (sl_attributes _) (.seq (.avoiding (.name l)) (.right (.left (.name r))))
  | .implements as l r =>
    exact .seq (sl_attributes _) (.seq (.avoiding (.name l)) (.right (.left (.name r))))

theorem sl_definitions (ds : List Definition) : Slices (definitions ds) (strings ds) :=
  .concat fun d _ => sl_definition d

theorem document_strings {ds : List Definition} {s : Str} (h : Document ds s) : InOrder (strings ds) s := by
  rcases h with ⟨rfl, rfl⟩ | ⟨_, t, ls, b, rfl, _, h, ht⟩
  · exact .nil
  · exact ((sl_definitions ds ls h).inOrder ht).prepend t

/-! ## Arguments -/

mutual

theorem args_type : ∀ t, WfType t → ∀ a ∈ argsType t, WfArgument a
  | .single t, h => by simp only [argsType]; exact args_singleType t (by simpa only [WfType] using h)
  | .union ms q, h => by simp only [argsType]; exact args_unionMembers ms (by simpa only [WfType] using h)

theorem args_singleType : ∀ t, WfSingleType t → ∀ a ∈ argsSingleType t, WfArgument a
  | .any, _ => by simp only [argsSingleType]; simp
  | .nonAny t, h => by simp only [argsSingleType]; exact args_nonAnyType t (by simpa only [WfSingleType] using h)

theorem args_nonAnyType : ∀ t, WfNonAnyType t → ∀ a ∈ argsNonAnyType t, WfArgument a
  | .promise r, h => by simp only [argsNonAnyType]; exact args_returnType r (by simpa only [WfNonAnyType] using h)
  | .integer t q, _ => by simp only [argsNonAnyType]; simp
  | .floatingPoint t q, _ => by simp only [argsNonAnyType]; simp
  | .builtin t q, _ => by simp only [argsNonAnyType]; simp
  | .sequence t q, h => by simp only [argsNonAnyType]; exact args_type t (by simpa only [WfNonAnyType] using h)
  | .frozenArray t q, h => by simp only [argsNonAnyType]; exact args_type t (by simpa only [WfNonAnyType] using h)
  | .record k v q, h => by
    simp only [WfNonAnyType] at h
    simp only [argsNonAnyType, List.mem_append]
    rintro a (ha | ha)
    · exact args_recordKeyType k h.1 a ha
    · exact args_type v h.2 a ha
  | .identifier i q, _ => by simp only [argsNonAnyType]; simp

theorem args_recordKeyType : ∀ t, WfRecordKeyType t → ∀ a ∈ argsRecordKeyType t, WfArgument a
  | .byte, _ => by simp only [argsRecordKeyType]; simp
  | .dom, _ => by simp only [argsRecordKeyType]; simp
  | .usv, _ => by simp only [argsRecordKeyType]; simp
  | .nonAny t, h => by
    simp only [WfRecordKeyType] at h
    simp only [argsRecordKeyType]
    exact args_nonAnyType t h.1

theorem args_unionMember : ∀ t, WfUnionMember t → ∀ a ∈ argsUnionMember t, WfArgument a
  | .single as t, h => by
    simp only [WfUnionMember] at h
    simp only [argsUnionMember, List.mem_append]
    rintro a (ha | ha)
    · exact args_attributes as h.1 a ha
    · exact args_nonAnyType t h.2 a ha
  | .union ms q, h => by
    simp only [argsUnionMember]; exact args_unionMembers ms (by simpa only [WfUnionMember] using h)

theorem args_unionMembers : ∀ ms, WfUnionMembers ms → ∀ a ∈ argsUnionMembers ms, WfArgument a
  | [], _ => by simp only [argsUnionMembers]; simp
  | m :: ms, h => by
    simp only [WfUnionMembers] at h
    simp only [argsUnionMembers, List.mem_append]
    rintro a (ha | ha)
    · exact args_unionMember m h.1 a ha
    · exact args_unionMembers ms h.2 a ha

theorem args_returnType : ∀ t, WfReturnType t → ∀ a ∈ argsReturnType t, WfArgument a
  | .undefined, _ => by simp only [argsReturnType]; simp
  | .type t, h => by simp only [argsReturnType]; exact args_type t (by simpa only [WfReturnType] using h)

theorem args_extAttr : ∀ t, WfExtAttr t → ∀ a ∈ argsExtAttr t, WfArgument a
  | .argList i args, h => by
    simp only [WfExtAttr] at h
    simp only [argsExtAttr]; exact args_arguments args h.2
  | .namedArgList l r args, h => by
    simp only [WfExtAttr] at h
    simp only [argsExtAttr]; exact args_arguments args h.2.2
  | .identList i is, _ => by simp only [argsExtAttr]; simp
  | .ident l r, _ => by simp only [argsExtAttr]; simp
  | .wildcard l, _ => by simp only [argsExtAttr]; simp
  | .noArgs i, _ => by simp only [argsExtAttr]; simp

theorem args_extAttrs : ∀ as, WfExtAttrs as → ∀ a ∈ argsExtAttrs as, WfArgument a
  | [], _ => by simp only [argsExtAttrs]; simp
  | m :: ms, h => by
    simp only [WfExtAttrs] at h
    simp only [argsExtAttrs, List.mem_append]
    rintro a (ha | ha)
    · exact args_extAttr m h.1 a ha
    · exact args_extAttrs ms h.2 a ha

theorem args_attributes : ∀ as, WfAttributes as → ∀ a ∈ argsAttributes as, WfArgument a
  | none, _ => by simp only [argsAttributes]; simp
  | some as, h => by simp only [argsAttributes]; exact args_extAttrs as (by simpa only [WfAttributes] using h)

theorem args_attributedType : ∀ t, WfAttributedType t → ∀ a ∈ argsAttributedType t, WfArgument a
  | .mk as t, h => by
    simp only [WfAttributedType] at h
    simp only [argsAttributedType, List.mem_append]
    rintro a (ha | ha)
    · exact args_attributes as h.1 a ha
    · exact args_type t h.2 a ha

theorem args_argument : ∀ x, WfArgument x → ∀ a ∈ argsArgument x, WfArgument a
  | .single as opt t i d, h => by
    have h' := h
    simp only [WfArgument] at h'
    simp only [argsArgument, List.cons_append, List.mem_cons, List.mem_append]
    rintro a (rfl | ha | ha)
    · exact h
    · exact args_attributes as h'.1 a ha
    · exact args_attributedType t h'.2.1 a ha
  | .variadic as t i, h => by
    have h' := h
    simp only [WfArgument] at h'
    simp only [argsArgument, List.cons_append, List.mem_cons, List.mem_append]
    rintro a (rfl | ha | ha)
    · exact h
    · exact args_attributes as h'.1 a ha
    · exact args_type t h'.2.1 a ha

theorem args_arguments : ∀ as, WfArguments as → ∀ a ∈ argsArguments as, WfArgument a
  | [], _ => by simp only [argsArguments]; simp
  | m :: ms, h => by
    simp only [WfArguments] at h
    simp only [argsArguments, List.mem_append]
    rintro a (ha | ha)
    · exact args_argument m h.1 a ha
    · exact args_arguments ms h.2 a ha

end

theorem args_operation {as : Attrs} {r : ReturnType} {i : Option Str} {args : List Argument}
    (h : WfOperation as r i args) : ∀ a ∈ argsOperation as r args, WfArgument a := by
  simp only [argsOperation, List.mem_append]
  rintro a ((ha | ha) | ha)
  · exact args_attributes as h.1 a ha
  · exact args_returnType r h.2.1 a ha
  · exact args_arguments args h.2.2.2 a ha

theorem args_attribute {as : Attrs} {t : AttributedType} (h : WfAttributes as) (h' : WfAttributedType t) :
    ∀ a ∈ argsAttribute as t, WfArgument a := by
  simp only [argsAttribute, List.mem_append]
  rintro a (ha | ha)
  · exact args_attributes as h a ha
  · exact args_attributedType t h' a ha

theorem args_typePair {p : AttributedType × AttributedType} (h : WfTypePair p) :
    ∀ a ∈ argsTypePair p, WfArgument a := by
  simp only [argsTypePair, List.mem_append]
  rintro a (ha | ha)
  · exact args_attributedType _ h.1 a ha
  · exact args_attributedType _ h.2 a ha

theorem args_optArguments {as : Option (List Argument)} (h : WfOptArguments as) :
    ∀ a ∈ argsOptArguments as, WfArgument a := by
  cases as with
  | none => exact fun _ h => nomatch h
  | some as => exact args_arguments as h

theorem args_interfaceMember {m : InterfaceMember} (h : WfInterfaceMember m) :
    ∀ a ∈ argsInterfaceMember m, WfArgument a := by
  match m, h with
  | .const m, h => exact args_attributes _ h.1
  | .attribute m, h => exact args_attribute h.1 h.2.1
  | .constructor m, h =>
    simp only [argsInterfaceMember, List.mem_append]
    rintro a (ha | ha)
    · exact args_attributes _ h.1 a ha
    · exact args_arguments _ h.2 a ha
  | .operation m, h => exact args_operation h
  | .iterable (.single as t), h => exact args_attribute h.1 h.2
  | .iterable (.double as t), h =>
    simp only [argsInterfaceMember, List.mem_append]
    rintro a (ha | ha)
    · exact args_attributes _ h.1 a ha
    · exact args_typePair h.2 a ha
  | .asyncIterable (.single as t args), h =>
    simp only [argsInterfaceMember, List.mem_append]
    rintro a (ha | ha)
    · exact args_attribute h.1 h.2.1 a ha
    · exact args_optArguments h.2.2 a ha
  | .asyncIterable (.double as t args), h =>
    simp only [argsInterfaceMember, List.mem_append]
    rintro a ((ha | ha) | ha)
    · exact args_attributes _ h.1 a ha
    · exact args_typePair h.2.1 a ha
    · exact args_optArguments h.2.2 a ha
  | .maplike m, h =>
    simp only [argsInterfaceMember, List.mem_append]
    rintro a (ha | ha)
    · exact args_attributes _ h.1 a ha
    · exact args_typePair h.2 a ha
  | .setlike m, h => exact args_attribute h.1 h.2
  | .stringifier m, h => exact args_attributes _ h

theorem args_mixinMember {m : MixinMember} (h : WfMixinMember m) : ∀ a ∈ argsMixinMember m, WfArgument a := by
  match m, h with
  | .const m, h => exact args_attributes _ h.1
  | .operation m, h => exact args_operation h
  | .attribute m, h => exact args_attribute h.1 h.2.1
  | .stringifier m, h => exact args_attributes _ h

theorem args_namespaceMember {m : NamespaceMember} (h : WfNamespaceMember m) :
    ∀ a ∈ argsNamespaceMember m, WfArgument a := by
  match m, h with
  | .const m, h => exact args_attributes _ h.1
  | .operation m, h => exact args_operation h
  | .attribute m, h => exact args_attribute h.1 h.2.1

theorem args_dictionaryMember {m : DictionaryMember} (h : WfDictionaryMember m) :
    ∀ a ∈ argsDictionaryMember m, WfArgument a := by
  simp only [argsDictionaryMember, List.mem_append]
  rintro a (ha | ha)
  · exact args_attributes _ h.1 a ha
  · exact args_type _ h.2.1 a ha

theorem args_body {α : Type} {W : α → Prop} {f : α → List Argument} {as : Attrs} {i : Str} {ms : List α}
    (h : WfBody W as i ms) (hf : ∀ m, W m → ∀ a ∈ f m, WfArgument a) :
    ∀ a ∈ argsAttributes as ++ ms.flatMap f, WfArgument a := by
  simp only [List.mem_append, List.mem_flatMap]
  rintro a (ha | ⟨m, hm, ha⟩)
  · exact args_attributes _ h.1 a ha
  · exact hf m (h.2.2 m hm) a ha

theorem args_definition {d : Definition} (h : WfDefinition d) : ∀ a ∈ argsDefinition d, WfArgument a := by
  match d, h with
  | .callback as i r args, h => exact args_operation (i := none) ⟨h.1, h.2.2.1, trivial, h.2.2.2⟩
  | .callbackInterface as i inh ms, h => exact args_body h.1 fun _ => args_interfaceMember
  | .interface as i inh ms, h => exact args_body h.1 fun _ => args_interfaceMember
  | .interfaceMixin as i ms, h => exact args_body h fun _ => args_mixinMember
  | .namespace as i ms, h => exact args_body h fun _ => args_namespaceMember
  | .dictionary as i inh ms, h => exact args_body h.1 fun _ => args_dictionaryMember
  | .partialInterface as i ms, h => exact args_body h fun _ => args_interfaceMember
  | .partialInterfaceMixin as i ms, h => exact args_body h fun _ => args_mixinMember
  | .partialDictionary as i ms, h => exact args_body h fun _ => args_dictionaryMember
  | .partialNamespace as i ms, h => exact args_body h fun _ => args_namespaceMember
  | .enum as i vs, h => exact args_attributes _ h.1.1
  | .typedef as t i, h => exact args_attribute h.1 h.2.1
  | .includesStatement as l r, h => exact args_attributes _ h.1
  | .implements as l r, h => exact args_attributes _ h.1

theorem args_definitions {ds : List Definition} (h : Wf ds) : ∀ a ∈ args ds, WfArgument a := by
  simp only [args, List.mem_flatMap]
  rintro a ⟨d, hd, ha⟩
  exact args_definition (h d hd) a ha

end Verif
