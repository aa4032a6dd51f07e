import Verif.Spec.Kind
import Verif.Proof.Rename

/-! # Brackets, and the kinds of definitions -/

namespace Verif
open Spec

theorem Spec.Balanced.append {a b : List Str} (ha : Balanced a) (hb : Balanced b) : Balanced (a ++ b) := by
  induction ha with
  | nil => exact hb
  | item hw _ ih => exact .item hw ih
  | group hp h _ _ ih =>
    have := Balanced.group hp h ih
    simpa using this

theorem closing_balanced {a : List Str} (ha : Balanced a) : ∀ (n : Nat) (b : List Str), closing n (a ++ b) = closing n b := by
  induction ha with
  | nil => intros; rfl
  | item hw _ ih =>
    intro n b
    have h1 := (hw (c!"[", c!"]") (by decide)).1
    have h2 := (hw (c!"[", c!"]") (by decide)).2
    simp only [List.cons_append, closing, if_neg h1, if_neg h2]
    exact ih n b
  | @group o c ls ls' hp h h' ih ih' =>
    intro n b
    have e : o :: ls ++ c :: ls' ++ b = o :: (ls ++ (c :: (ls' ++ b))) := by simp
    rw [e]
    simp [pairs] at hp
    rcases hp with ⟨rfl, rfl⟩ | ⟨rfl, rfl⟩ | ⟨rfl, rfl⟩ | ⟨rfl, rfl⟩ <;> simp [closing, ih, ih']

/-- All spellings are balanced. -/
def AllBalanced (A : Lang) : Prop := ∀ ls, A ls → Balanced ls

def isPlain (w : Str) : Bool := pairs.all fun p => w != p.1 && w != p.2

theorem isPlain_balanced {w : Str} (h : isPlain w = true) : Balanced [w] := by
  refine .item (fun p hp => ?_) .nil
  have := List.all_eq_true.1 h p hp
  simpa using this

theorem plain_head {c : Char} {v : Str} (h : c ∉ ['(', ')', '[', ']', '{', '}', '<', '>']) : isPlain (c :: v) = true := by
  simp [isPlain, pairs]
  simp at h
  grind

namespace AllBalanced

variable {A B : Lang} {i : Str}

theorem tok {w : Str} (h : isPlain w = true) : AllBalanced (tok w) := by
  rintro _ rfl
  exact isPlain_balanced h

theorem eps : AllBalanced eps := by
  rintro _ rfl
  exact .nil

theorem seq (ha : AllBalanced A) (hb : AllBalanced B) : AllBalanced (A ⨾ B) := by
  rintro _ ⟨a, b, rfl, h1, h2⟩
  exact (ha a h1).append (hb b h2)

theorem cons {w : Str} (h : isPlain w = true) (hb : AllBalanced B) : AllBalanced (Spec.tok w ⨾ B) :=
  seq (tok h) hb

theorem mid {w w' : Str} (h : (w, w') ∈ pairs) (ha : AllBalanced A) : AllBalanced (Spec.tok w ⨾ A ⨾ Spec.tok w') := by
  rintro _ ⟨_, _, rfl, rfl, a, _, rfl, h1, rfl⟩
  exact .group h (ha a h1) .nil

theorem opt (q : Bool) {w : Str} (h : isPlain w = true) : AllBalanced (optTok q w) := by
  cases q
  · exact eps
  · exact tok h

theorem avoiding {ps : List (List Str)} (ha : AllBalanced A) : AllBalanced (avoiding ps A) := fun ls h => ha ls h.1

theorem alpha {c : Char} (h : c.isAlpha = true) : c ∉ ['(', ')', '[', ']', '{', '}', '<', '>'] := by
  intro hc
  simp at hc
  rcases hc with rfl | rfl | rfl | rfl | rfl | rfl | rfl | rfl <;>
    simp [Char.isAlpha, Char.isUpper, Char.isLower] at h

theorem name (i : Str) : AllBalanced (name i) := by
  rintro ls ⟨h1, h2⟩
  obtain ⟨c, v, rfl, hc, -⟩ := word_iff.1 h1
  rcases h2 with rfl | rfl
  · exact isPlain_balanced (plain_head (alpha hc))
  · exact isPlain_balanced (plain_head (by decide))

theorem typeName {l : List Str} (i : Str) : AllBalanced (typeName l i) := by
  rintro ls ⟨h1, h2⟩
  refine name i ls ⟨h1, ?_⟩
  rcases h2 with ⟨h, -⟩ | h
  · exact .inl h
  · exact .inr h

theorem named (ha : AllBalanced A) : AllBalanced (named A i) := by
  rintro _ ⟨a, b, rfl, h1, h2, h3⟩
  exact (ha a h1).append (name i b h2)

theorem string (v : Str) : AllBalanced (string v) := by
  rintro ls ⟨h1, rfl⟩
  exact isPlain_balanced (plain_head (by decide))

theorem number {re : Regex} (hre : ∀ v, re.Matches v → Numeral v) (v : Str) : AllBalanced (literal re v) := by
  rintro ls ⟨h1, rfl⟩
  obtain ⟨c, v, rfl, hc⟩ := Number.first (hre v h1)
  refine isPlain_balanced (plain_head fun h => ?_)
  unfold IsDig at hc
  simp at h
  rcases h with rfl | rfl | rfl | rfl | rfl | rfl | rfl | rfl <;> exact absurd hc (by decide)

theorem sepBy {sep : Lang} (hs : AllBalanced sep) {α : Type} {L : α → Lang} : ∀ {l : List α},
    (∀ a ∈ l, AllBalanced (L a)) → AllBalanced (sepBy sep (l.map L))
  | [], _ => eps
  | [a], h => h a (by simp)
  | a :: b :: l, h => seq (h a (by simp)) (seq hs (AllBalanced.sepBy hs (l := b :: l) fun c hc => h c (List.mem_cons_of_mem _ hc)))

theorem concat {α : Type} {L : α → Lang} : ∀ {l : List α},
    (∀ a ∈ l, AllBalanced (L a)) → AllBalanced (concat (l.map L))
  | [], _ => eps
  | a :: l, h => seq (h a (by simp)) (AllBalanced.concat (l := l) fun c hc => h c (List.mem_cons_of_mem _ hc))

end AllBalanced
/-! ## Literals -/

theorem bal_integer (i : IntegerLit) : AllBalanced (integerLit i) := by
  cases i
  · exact .number (fun _ h => .inl h) _
  · exact .number (fun _ h => .inr (.inl h)) _
  · exact .number (fun _ h => .inr (.inr (.inl h))) _

theorem bal_float (f : FloatLit) : AllBalanced (floatLit f) := by
  cases f
  · exact .number (fun _ h => .inr (.inr (.inr h))) _
  all_goals exact .tok (by decide +kernel)

theorem bal_boolean (b : Bool) : AllBalanced (booleanLit b) := by
  cases b <;> exact .tok (by decide +kernel)

theorem bal_defaultValue (d : DefaultValue) : AllBalanced (defaultValue d) := by
  cases d with
  | float f => exact bal_float f
  | integer i => exact bal_integer i
  | string v => exact .string v
  | boolean b => exact bal_boolean b
  | emptyArray =>
    rintro _ ⟨_, _, rfl, rfl, rfl⟩
    exact .group (ls := []) (by decide) .nil .nil
  | emptyDictionary =>
    rintro _ ⟨_, _, rfl, rfl, rfl⟩
    exact .group (ls := []) (by decide) .nil .nil
  | null => exact .tok (by decide +kernel)

theorem bal_constValue (d : ConstValue) : AllBalanced (constValue d) := by
  cases d with
  | float f => exact bal_float f
  | integer i => exact bal_integer i
  | boolean b => exact bal_boolean b
  | null => exact .tok (by decide +kernel)

theorem bal_default (d : Option DefaultValue) : AllBalanced (Spec.default d) := by
  cases d with
  | none => exact .eps
  | some d => exact .cons (by decide +kernel) (bal_defaultValue d)

theorem bal_integerType (t : IntegerType) : AllBalanced (integerType t) := by
  cases t with
  | longLong u => exact .seq (.opt u (by decide +kernel)) (.cons (by decide +kernel) (.tok (by decide +kernel)))
  | long u => exact .seq (.opt u (by decide +kernel)) (.tok (by decide +kernel))
  | short u => exact .seq (.opt u (by decide +kernel)) (.tok (by decide +kernel))

theorem bal_floatingPointType (t : FloatingPointType) : AllBalanced (floatingPointType t) := by
  cases t <;> exact .seq (.opt _ (by decide +kernel)) (.tok (by decide +kernel))

theorem plain_builtin (b : Builtin) : isPlain (builtinWord b) = true := by
  cases b <;> decide +kernel

theorem plain_query : isPlain c!"?" = true := by decide
theorem plain_comma : isPlain c!"," = true := by decide
theorem plain_semi : isPlain c!";" = true := by decide

/-- `T?` -/
theorem bal_null {A : Lang} (h : AllBalanced A) (q : Bool) : AllBalanced (A ⨾ optTok q c!"?") :=
  .seq h (.opt q plain_query)

theorem bal_angles {A : Lang} (h : AllBalanced A) : AllBalanced (angles A) := .mid (by decide) h
theorem bal_parens {A : Lang} (h : AllBalanced A) : AllBalanced (parens A) := .mid (by decide) h
theorem bal_brackets {A : Lang} (h : AllBalanced A) : AllBalanced (brackets A) := .mid (by decide) h
theorem bal_braces {A : Lang} (h : AllBalanced A) : AllBalanced (braces A) := .mid (by decide) h
theorem bal_comma : AllBalanced comma := .tok plain_comma
theorem bal_semi : AllBalanced (tok c!";") := .tok plain_semi


theorem bal_idOrString (x : IdentifierOrString) :
    AllBalanced (identifierOrString x) := by
  cases x with
  | identifier i => exact .name i
  | string v => exact .string v

/-! ## Types -/

mutual

theorem bal_type : ∀ t, AllBalanced (type t)
  | .single t => by simp only [type]; exact bal_singleType t
  | .union ms q => by
    simp only [type]
    exact bal_null (bal_parens (bal_unionMembers ms)) q

theorem bal_singleType : ∀ t, AllBalanced (singleType t)
  | .any => by simp only [singleType]; exact .tok (by decide +kernel)
  | .nonAny t => by simp only [singleType]; exact .avoiding (bal_nonAnyType t)

theorem bal_nonAnyType : ∀ t, AllBalanced (nonAnyType t)
  | .promise r => by
    simp only [nonAnyType]; exact .cons (by decide +kernel) (bal_angles (bal_returnType r))
  | .integer t q => by simp only [nonAnyType]; exact bal_null (bal_integerType t) q
  | .floatingPoint t q => by simp only [nonAnyType]; exact bal_null (bal_floatingPointType t) q
  | .builtin t q => by simp only [nonAnyType]; exact bal_null (.tok (plain_builtin t)) q
  | .sequence t q => by
    simp only [nonAnyType]; exact bal_null (.cons (by decide +kernel) (bal_angles (bal_type t))) q
  | .frozenArray t q => by
    simp only [nonAnyType]; exact bal_null (.cons (by decide +kernel) (bal_angles (bal_type t))) q
  | .record k v q => by
    simp only [nonAnyType]
    exact bal_null (.cons (by decide +kernel) (bal_angles (.seq (bal_recordKeyType k) (.seq bal_comma (bal_type v))))) q
  | .identifier i q => by
    simp only [nonAnyType]; exact bal_null (.typeName i) q

theorem bal_recordKeyType : ∀ t, AllBalanced (recordKeyType t)
  | .byte => by simp only [recordKeyType]; exact .tok (by decide +kernel)
  | .dom => by simp only [recordKeyType]; exact .tok (by decide +kernel)
  | .usv => by simp only [recordKeyType]; exact .tok (by decide +kernel)
  | .nonAny t => by
    simp only [recordKeyType]; exact .avoiding (bal_nonAnyType t)

theorem bal_unionMember : ∀ t, AllBalanced (unionMember t)
  | .single as t => by
    simp only [unionMember]
    exact .seq (bal_attributes as) (bal_nonAnyType t)
  | .union ms q => by
    simp only [unionMember]
    exact bal_null (bal_parens (bal_unionMembers ms)) q

theorem bal_unionMembers : ∀ ms, AllBalanced (sepBy (tok c!"or") (unionMembers ms))
  | [] => by simp only [unionMembers]; exact .eps
  | [m] => by
    simp only [unionMembers, sepBy]
    exact bal_unionMember m
  | m :: m' :: ms => by
    have := bal_unionMembers (m' :: ms)
    simp only [unionMembers, sepBy] at this ⊢
    exact .seq (bal_unionMember m) (.cons (by decide +kernel) this)

theorem bal_returnType : ∀ t, AllBalanced (returnType t)
  | .undefined => by simp only [returnType]; exact .tok (by decide +kernel)
  | .type t => by simp only [returnType]; exact .avoiding (bal_type t)

theorem bal_extAttr : ∀ t, AllBalanced (extAttr t)
  | .argList i args => by
    simp only [extAttr]
    exact .seq (.name i) (bal_parens (bal_arguments args))
  | .namedArgList l r args => by
    simp only [extAttr]
    exact .seq (.name l) (.cons (by decide) (.seq (.name r) (bal_parens (bal_arguments args))))
  | .identList i is => by
    simp only [extAttr]
    exact .seq (.name i) (.cons (by decide) (bal_parens (.sepBy bal_comma fun j _ => .name j)))
  | .ident l r => by
    simp only [extAttr]
    exact .seq (.name l) (.cons (by decide) (bal_idOrString r))
  | .wildcard l => by
    simp only [extAttr]
    exact .seq (.name l) (.cons (by decide) (.tok (by decide)))
  | .noArgs i => by
    simp only [extAttr]
    exact .name i

theorem bal_extAttrs : ∀ as, AllBalanced (sepBy comma (extAttrs as))
  | [] => by simp only [extAttrs]; exact .eps
  | [m] => by
    simp only [extAttrs, sepBy]
    exact bal_extAttr m
  | m :: m' :: ms => by
    have := bal_extAttrs (m' :: ms)
    simp only [extAttrs, sepBy] at this ⊢
    exact .seq (bal_extAttr m) (.seq bal_comma this)

theorem bal_attributes : ∀ as, AllBalanced (attributes as)
  | none => by simp only [attributes]; exact .eps
  | some as => by simp only [attributes]; exact bal_brackets (bal_extAttrs as)

theorem bal_namedAttributed : ∀ t i, AllBalanced (namedAttributed t i)
  | .mk as t, i => by
    simp only [namedAttributed]
    exact .seq (bal_attributes as) (.named (bal_type t))

theorem bal_argument : ∀ a, AllBalanced (argument a)
  | .single as true t i d => by
    simp only [argument, if_true]
    exact .seq (bal_attributes as) (.cons (by decide +kernel) (.seq (bal_namedAttributed t i) (bal_default d)))
  | .single as false t i d => by
    simp only [argument, Bool.false_eq_true, if_false]
    refine .seq (bal_attributes as) ?_
    rintro ls ⟨-, h⟩
    exact AllBalanced.avoiding (bal_namedAttributed t i) ls h
  | .variadic as t i => by
    simp only [argument]
    exact .seq (bal_attributes as) (.seq (bal_type t) (.cons (by decide) (.name i)))

theorem bal_arguments : ∀ as, AllBalanced (sepBy comma (arguments as))
  | [] => by simp only [arguments]; exact .eps
  | [m] => by
    simp only [arguments, sepBy]
    exact bal_argument m
  | m :: m' :: ms => by
    have := bal_arguments (m' :: ms)
    simp only [arguments, sepBy] at this ⊢
    exact .seq (bal_argument m) (.seq bal_comma this)

end

/-! ## Members -/

theorem bal_attributedType (t : AttributedType) : AllBalanced (attributedType t) := by
  cases t with
  | mk as t =>
    simp only [attributedType]
    exact .seq (bal_attributes as) (bal_type t)

theorem bal_argumentList (as : List Argument) : AllBalanced (argumentList as) :=
  bal_parens (bal_arguments as)

theorem bal_optArgumentList (as : Option (List Argument)) :
    AllBalanced (optArgumentList as) := by
  cases as with
  | none => exact .eps
  | some as => exact bal_argumentList as

theorem bal_constType (t : ConstType) : AllBalanced (constType t) := by
  cases t with
  | identifier i q => exact bal_null (.typeName i) q
  | integer t q => exact bal_null (bal_integerType t) q
  | floatingPoint t q => exact bal_null (bal_floatingPointType t) q
  | _ => exact bal_null (.tok (by decide +kernel)) _

theorem bal_returnNamed (r : ReturnType) (i : Option Str) :
    AllBalanced (returnNamed r i) := by
  cases i with
  | none => exact bal_returnType r
  | some i => exact .named (bal_returnType r)

theorem bal_const (m : ConstMember) : AllBalanced (constMember m) :=
  .seq (bal_attributes _) (.cons (by decide +kernel) (.seq (.named (bal_constType _)) (.cons (by decide)
    (.seq (bal_constValue _) bal_semi))))

theorem bal_operation (r : ReturnType) (i : Option Str) (as : List Argument) :
    AllBalanced (returnNamed r i ⨾ argumentList as ⨾ tok c!";") :=
  .seq (bal_returnNamed r i) (.seq (bal_argumentList as) bal_semi)

theorem bal_modifier (m : Option StringifierOrInheritOrStatic) : AllBalanced (modifier m) := by
  rcases m with _ | (_ | _ | _)
  · exact .eps
  all_goals exact .tok (by decide +kernel)

theorem bal_modified {m : Option StringifierOrStatic} {A : Lang} (h : AllBalanced A) :
    AllBalanced (modified m A) := by
  rcases m with _ | (_ | _)
  · exact .avoiding h
  all_goals exact .cons (by decide +kernel) h

theorem bal_specialised {m : Option Special} {A : Lang} (h : AllBalanced A) :
    AllBalanced (specialised m A) := by
  rcases m with _ | (_ | _ | _ | _)
  · exact .avoiding h
  all_goals exact .cons (by decide +kernel) h

theorem bal_optWord {b : Bool} {w : Str} (hw : isPlain w = true) {A : Lang} (h : AllBalanced A) :
    AllBalanced (optWord b w A) := by
  cases b
  · exact .avoiding h
  · exact .cons hw h

theorem bal_typePair (p : AttributedType × AttributedType) : AllBalanced (typePair p) :=
  .seq (bal_attributedType _) (.seq bal_comma (bal_attributedType _))

theorem bal_attribute {A : Lang} (h : AllBalanced A) (r : Bool) :
    AllBalanced (optTok r c!"readonly" ⨾ tok c!"attribute" ⨾ A ⨾ tok c!";") :=
  .seq (.opt r (by decide +kernel)) (.cons (by decide +kernel) (.seq h bal_semi))

theorem bal_stringifier (m : StringifierMember) : AllBalanced (stringifierMember m) :=
  .seq (bal_attributes _) (.cons (by decide +kernel) bal_semi)

theorem bal_interfaceMember (m : InterfaceMember) :
    AllBalanced (interfaceMember m) := by
  match m with
  | .const m => exact bal_const m
  | .attribute m =>
    exact .seq (bal_attributes _) (.seq (bal_modifier _) (bal_attribute (bal_namedAttributed _ _) _))
  | .constructor m =>
    exact .seq (bal_attributes _) (.cons (by decide +kernel) (.seq (bal_argumentList _) bal_semi))
  | .operation m =>
    exact .seq (bal_attributes _) (.avoiding
      (bal_modified (bal_specialised (bal_operation _ _ _))))
  | .iterable (.single as t) =>
    exact .seq (bal_attributes _) (.cons (by decide +kernel) (.seq (bal_angles (bal_attributedType _)) bal_semi))
  | .iterable (.double as t) =>
    exact .seq (bal_attributes _) (.cons (by decide +kernel) (.seq (bal_angles (bal_typePair _)) bal_semi))
  | .asyncIterable (.single as t args) =>
    exact .seq (bal_attributes _) (.cons (by decide +kernel) (.cons (by decide +kernel)
      (.seq (bal_angles (bal_attributedType _)) (.seq (bal_optArgumentList _) bal_semi))))
  | .asyncIterable (.double as t args) =>
    exact .seq (bal_attributes _) (.cons (by decide +kernel) (.cons (by decide +kernel)
      (.seq (bal_angles (bal_typePair _)) (.seq (bal_optArgumentList _) bal_semi))))
  | .maplike m =>
    exact .seq (bal_attributes _) (.seq (.opt _ (by decide +kernel)) (.cons (by decide +kernel)
      (.seq (bal_angles (bal_typePair _)) bal_semi)))
  | .setlike m =>
    exact .seq (bal_attributes _) (.seq (.opt _ (by decide +kernel)) (.cons (by decide +kernel)
      (.seq (bal_angles (bal_attributedType _)) bal_semi)))
  | .stringifier m => exact bal_stringifier m

theorem bal_mixinMember (m : MixinMember) : AllBalanced (mixinMember m) := by
  match m with
  | .const m => exact bal_const m
  | .operation m => exact .seq (bal_attributes _) (bal_optWord (by decide +kernel) (bal_operation _ _ _))
  | .attribute m =>
    exact .seq (bal_attributes _) (.seq (.opt _ (by decide +kernel)) (bal_attribute (bal_namedAttributed _ _) _))
  | .stringifier m => exact bal_stringifier m

theorem bal_namespaceMember (m : NamespaceMember) :
    AllBalanced (namespaceMember m) := by
  match m with
  | .const m => exact bal_const m
  | .operation m => exact .seq (bal_attributes _) (bal_operation _ _ _)
  | .attribute m => exact .seq (bal_attributes _) (bal_attribute (bal_namedAttributed _ _) true)

theorem bal_dictionaryMember (m : DictionaryMember) :
    AllBalanced (dictionaryMember m) :=
  .seq (bal_attributes _) (bal_optWord (by decide +kernel) (.seq (.named (bal_type _))
    (.seq (bal_default _) bal_semi)))

/-! ## Definitions -/

theorem bal_inheritance (i : Option Str) : AllBalanced (inheritance i) := by
  cases i with
  | none => exact .eps
  | some i => exact .cons (by decide) (.name i)

theorem bal_body {α : Type} {L : α → Lang} {ms : List α} (h : ∀ m, AllBalanced (L m)) :
    AllBalanced (body L ms) :=
  .seq (bal_braces (.concat fun m _ => h m)) bal_semi

theorem bal_definition (d : Definition) : AllBalanced (definition d) := by
  have hi : ∀ (i : Str) (inh : Option Str) ms, AllBalanced (name i ⨾ inheritance inh ⨾ body interfaceMember ms) := fun i inh ms =>
    .seq (.name i) (.seq (bal_inheritance inh) (bal_body (bal_interfaceMember)))
  match d with
  | .callback as i r args =>
    exact .seq (bal_attributes _) (.cons (by decide +kernel) (.seq (.name i) (.cons (by decide)
      (.seq (bal_returnType r) (.seq (bal_argumentList _) bal_semi)))))
  | .callbackInterface as i inh ms =>
    exact .seq (bal_attributes _) (.cons (by decide +kernel) (.cons (by decide +kernel) (hi i inh ms)))
  | .interface as i inh ms => exact .seq (bal_attributes _) (.cons (by decide +kernel) (hi i inh ms))
  | .interfaceMixin as i ms =>
    exact .seq (bal_attributes _) (.cons (by decide +kernel) (.cons (by decide +kernel)
      (.seq (.name i) (bal_body (bal_mixinMember)))))
  | .namespace as i ms =>
    exact .seq (bal_attributes _) (.cons (by decide +kernel) (.seq (.name i) (bal_body (bal_namespaceMember))))
  | .dictionary as i inh ms =>
    exact .seq (bal_attributes _) (.cons (by decide +kernel) (.seq (.name i) (.seq (bal_inheritance inh)
      (bal_body (bal_dictionaryMember)))))
  | .partialInterface as i ms =>
    exact .seq (bal_attributes _) (.cons (by decide +kernel) (.cons (by decide +kernel)
      (.seq (.name i) (bal_body (bal_interfaceMember)))))
  | .partialInterfaceMixin as i ms =>
    exact .seq (bal_attributes _) (.cons (by decide +kernel) (.cons (by decide +kernel) (.cons (by decide +kernel)
      (.seq (.name i) (bal_body (bal_mixinMember))))))
  | .partialDictionary as i ms =>
    exact .seq (bal_attributes _) (.cons (by decide +kernel) (.cons (by decide +kernel)
      (.seq (.name i) (bal_body (bal_dictionaryMember)))))
  | .partialNamespace as i ms =>
    exact .seq (bal_attributes _) (.cons (by decide +kernel) (.cons (by decide +kernel)
      (.seq (.name i) (bal_body (bal_namespaceMember)))))
  | .enum as i vs =>
    have hv : AllBalanced (enumValues vs) := by
      rintro ls ⟨hv, c, h⟩
      exact AllBalanced.seq (.sepBy bal_comma (l := vs) fun v _ => .string v) (.opt c plain_comma) ls h
    exact .seq (bal_attributes _) (.cons (by decide +kernel) (.seq (.name i) (.seq (bal_braces hv) bal_semi)))
  | .typedef as t i =>
    exact .seq (bal_attributes _) (.cons (by decide +kernel) (.seq (bal_namedAttributed _ _) bal_semi))
  | .includesStatement as l r =>
    exact .seq (bal_attributes _) (.seq (.avoiding (.name l)) (.cons (by decide +kernel)
      (.seq (.name r) bal_semi)))
  | .implements as l r =>
    exact .seq (bal_attributes _) (.seq (.avoiding (.name l)) (.cons (by decide +kernel)
      (.seq (.name r) bal_semi)))

theorem bal_definitions (ds : List Definition) : AllBalanced (definitions ds) :=
  .concat fun d _ => bal_definition d


/-! ## Kinds -/

/-- a word in the place of a name -/
def IsName (w : Str) : Prop := ∃ i, name i [w]

theorem isName_not {w : Str} (h : IsName w) {x : Str} (hx : x ∈ c!"[" :: marks) : w ≠ x := by
  rintro rfl
  obtain ⟨i, h1, h2⟩ := h
  obtain ⟨c, v, rfl, hc, -⟩ := word_iff.1 h1
  simp [marks] at hx
  simp at h2
  rcases hx with rfl | rfl | rfl | rfl <;> simp at h2 <;> obtain ⟨rfl, -⟩ := h2 <;>
    simp [Char.isAlpha, Char.isUpper, Char.isLower] at hc

theorem name_seq {i : Str} {B : Lang} {ls : List Str} (h : (name i ⨾ B) ls) : ∃ w b, ls = w :: b ∧ IsName w ∧ B b := by
  obtain ⟨a, b, rfl, h1, h2⟩ := h
  have : ∃ w, a = [w] := by rcases h1.2 with rfl | rfl <;> exact ⟨_, rfl⟩
  obtain ⟨w, rfl⟩ := this
  exact ⟨w, b, rfl, ⟨i, h1⟩, h2⟩

theorem tok_seq {w : Str} {B : Lang} {ls : List Str} (h : (tok w ⨾ B) ls) : ∃ b, ls = w :: b ∧ B b := by
  obtain ⟨a, b, rfl, rfl, h2⟩ := h
  exact ⟨b, rfl, h2⟩

theorem body_head {α : Type} {L : α → Lang} {ms : List α} {ls : List Str} (h : body L ms ls) : ∃ b, ls = c!"{" :: b := by
  obtain ⟨a, b, rfl, ⟨x, y, rfl, rfl, -⟩, -⟩ := h
  exact ⟨y ++ b, rfl⟩

theorem inherits_head {α : Type} {L : α → Lang} {ms : List α} {inh : Option Str} {ls : List Str}
    (h : (inheritance inh ⨾ body L ms) ls) : ∃ c b, ls = c :: b ∧ c ∈ marks := by
  obtain ⟨a, b, rfl, h1, h2⟩ := h
  obtain ⟨b, rfl⟩ := body_head h2
  cases inh with
  | none => obtain rfl := h1; exact ⟨_, _, rfl, by decide⟩
  | some i =>
    obtain ⟨x, y, rfl, rfl, -⟩ := h1
    exact ⟨_, _, rfl, by decide⟩

/-- The attributes in front of a definition. -/
def defAttributes : Definition → Attrs
  | .callback as .. => as
  | .callbackInterface as .. => as
  | .interface as .. => as
  | .interfaceMixin as .. => as
  | .namespace as .. => as
  | .dictionary as .. => as
  | .partialInterface as .. => as
  | .partialInterfaceMixin as .. => as
  | .partialDictionary as .. => as
  | .partialNamespace as .. => as
  | .enum as .. => as
  | .typedef as .. => as
  | .includesStatement as .. => as
  | .implements as .. => as

theorem kind_split (d : Definition) {ls : List Str} (h : definition d ls) :
    ∃ a b, ls = a ++ b ∧ attributes (defAttributes d) a ∧ classify b = some (kind d) ∧ b.head? ≠ some c!"[" := by
  have nm : ∀ {w : Str}, IsName w → w ∉ marks := fun h hm => isName_not h (List.mem_cons_of_mem _ hm) rfl
  have m1 : c!"=" ∈ marks := by decide
  have m2 : c!"{" ∈ marks := by decide
  match d, h with
  | .callback as i r args, h =>
    obtain ⟨a, b, rfl, ha, hb⟩ := h
    obtain ⟨b, rfl, hb1⟩ := tok_seq hb
    obtain ⟨w, b, rfl, hw, hb2⟩ := name_seq hb1
    obtain ⟨b, rfl, hb3⟩ := tok_seq hb2
    refine ⟨a, _, rfl, ha, ?_, by simp⟩
    simp [classify, m1, kind]
  | .callbackInterface as i inh ms, h =>
    obtain ⟨a, b, rfl, ha, hb⟩ := h
    obtain ⟨b, rfl, hb1⟩ := tok_seq hb
    obtain ⟨b, rfl, hb2⟩ := tok_seq hb1
    obtain ⟨w, b, rfl, hw, hb3⟩ := name_seq hb2
    refine ⟨a, _, rfl, ha, ?_, by simp⟩
    simp [classify, nm hw, kind]
  | .interface as i inh ms, h =>
    obtain ⟨a, b, rfl, ha, hb⟩ := h
    obtain ⟨b, rfl, hb1⟩ := tok_seq hb
    obtain ⟨w, b, rfl, hw, hb2⟩ := name_seq hb1
    obtain ⟨c, b, rfl, hc⟩ := inherits_head hb2
    refine ⟨a, _, rfl, ha, ?_, by simp⟩
    simp [classify, hc, kind]
  | .interfaceMixin as i ms, h =>
    obtain ⟨a, b, rfl, ha, hb⟩ := h
    obtain ⟨b, rfl, hb1⟩ := tok_seq hb
    obtain ⟨b, rfl, hb2⟩ := tok_seq hb1
    obtain ⟨w, b, rfl, hw, hb3⟩ := name_seq hb2
    refine ⟨a, _, rfl, ha, ?_, by simp⟩
    simp [classify, nm hw, kind]
  | .namespace as i ms, h =>
    obtain ⟨a, b, rfl, ha, hb⟩ := h
    obtain ⟨b, rfl, hb1⟩ := tok_seq hb
    obtain ⟨w, b, rfl, hw, hb2⟩ := name_seq hb1
    obtain ⟨b, rfl⟩ := body_head hb2
    refine ⟨a, _, rfl, ha, ?_, by simp⟩
    simp [classify, m2, kind]
  | .dictionary as i inh ms, h =>
    obtain ⟨a, b, rfl, ha, hb⟩ := h
    obtain ⟨b, rfl, hb1⟩ := tok_seq hb
    obtain ⟨w, b, rfl, hw, hb2⟩ := name_seq hb1
    obtain ⟨c, b, rfl, hc⟩ := inherits_head hb2
    refine ⟨a, _, rfl, ha, ?_, by simp⟩
    simp [classify, hc, kind]
  | .partialInterface as i ms, h =>
    obtain ⟨a, b, rfl, ha, hb⟩ := h
    obtain ⟨b, rfl, hb1⟩ := tok_seq hb
    obtain ⟨b, rfl, hb2⟩ := tok_seq hb1
    obtain ⟨w, b, rfl, hw, hb3⟩ := name_seq hb2
    obtain ⟨b, rfl⟩ := body_head hb3
    refine ⟨a, _, rfl, ha, ?_, by simp⟩
    simp [classify, kind]
  | .partialInterfaceMixin as i ms, h =>
    obtain ⟨a, b, rfl, ha, hb⟩ := h
    obtain ⟨b, rfl, hb1⟩ := tok_seq hb
    obtain ⟨b, rfl, hb2⟩ := tok_seq hb1
    obtain ⟨b, rfl, hb3⟩ := tok_seq hb2
    obtain ⟨w, b, rfl, hw, hb4⟩ := name_seq hb3
    refine ⟨a, _, rfl, ha, ?_, by simp⟩
    simp [classify, isName_not hw (x := c!"{") (by decide), kind]
  | .partialDictionary as i ms, h =>
    obtain ⟨a, b, rfl, ha, hb⟩ := h
    obtain ⟨b, rfl, hb1⟩ := tok_seq hb
    obtain ⟨b, rfl, hb2⟩ := tok_seq hb1
    obtain ⟨w, b, rfl, hw, hb3⟩ := name_seq hb2
    refine ⟨a, _, rfl, ha, ?_, by simp⟩
    simp [classify, kind]
  | .partialNamespace as i ms, h =>
    obtain ⟨a, b, rfl, ha, hb⟩ := h
    obtain ⟨b, rfl, hb1⟩ := tok_seq hb
    obtain ⟨b, rfl, hb2⟩ := tok_seq hb1
    obtain ⟨w, b, rfl, hw, hb3⟩ := name_seq hb2
    refine ⟨a, _, rfl, ha, ?_, by simp⟩
    simp [classify, kind]
  | .enum as i vs, h =>
    obtain ⟨a, b, rfl, ha, hb⟩ := h
    obtain ⟨b, rfl, hb1⟩ := tok_seq hb
    obtain ⟨w, b, rfl, hw, hb2⟩ := name_seq hb1
    obtain ⟨_, _, rfl, ⟨_, x, rfl, rfl, -⟩, -⟩ := hb2
    refine ⟨a, _, rfl, ha, ?_, by simp⟩
    simp [classify, m2, kind]
  | .typedef as t i, h =>
    obtain ⟨a, b, rfl, ha, hb⟩ := h
    obtain ⟨b, rfl, hb1⟩ := tok_seq hb
    refine ⟨a, _, rfl, ha, ?_, by simp⟩
    obtain ⟨x, y, rfl, h1, rfl⟩ := hb1
    match t, h1 with
    | .mk as t, h1 =>
      obtain ⟨a, x, rfl, -, b, n, rfl, h2, h3, -⟩ := h1
      obtain ⟨w, ls, rfl, -⟩ := type_head h2
      obtain ⟨v, rfl⟩ : ∃ v, n = [v] := by rcases h3.2 with rfl | rfl <;> exact ⟨_, rfl⟩
      obtain ⟨p, q, l, e⟩ : ∃ p q l, a ++ (w :: ls ++ [v]) ++ [c!";"] = p :: q :: l := by
        cases a with
        | nil => cases ls <;> exact ⟨_, _, _, rfl⟩
        | cons p a => cases a <;> exact ⟨_, _, _, rfl⟩
      rw [e]
      simp [classify, kind]
  | .includesStatement as l r, h =>
    obtain ⟨a, b, rfl, ha, hb⟩ := h
    obtain ⟨x, b, rfl, ⟨hx, hx'⟩, hb1⟩ := hb
    obtain ⟨w, rfl⟩ : ∃ v, x = [v] := by rcases hx.2 with rfl | rfl <;> exact ⟨_, rfl⟩
    obtain ⟨b, rfl, hb2⟩ := tok_seq hb1
    obtain ⟨v, b, rfl, hv, hb3⟩ := name_seq hb2
    refine ⟨a, _, rfl, ha, ?_, ?_⟩
    · have : w ≠ c!"typedef" := by rintro rfl; exact hx' [c!"typedef"] (by simp) ⟨[], rfl⟩
      simp [classify, nm hv, kind, this]
    · simpa using isName_not ⟨l, hx⟩ (x := c!"[") (by decide)
  | .implements as l r, h =>
    obtain ⟨a, b, rfl, ha, hb⟩ := h
    obtain ⟨x, b, rfl, ⟨hx, hx'⟩, hb1⟩ := hb
    obtain ⟨w, rfl⟩ : ∃ v, x = [v] := by rcases hx.2 with rfl | rfl <;> exact ⟨_, rfl⟩
    obtain ⟨b, rfl, hb2⟩ := tok_seq hb1
    obtain ⟨v, b, rfl, hv, hb3⟩ := name_seq hb2
    refine ⟨a, _, rfl, ha, ?_, ?_⟩
    · have : w ≠ c!"typedef" := by rintro rfl; exact hx' [c!"typedef"] (by simp) ⟨[], rfl⟩
      simp [classify, nm hv, kind, this]
    · simpa using isName_not ⟨l, hx⟩ (x := c!"[") (by decide)

theorem after_attributes {as : Attrs} {a b : List Str} (ha : attributes as a) (hb : b.head? ≠ some c!"[") :
    afterAttributes (a ++ b) = b := by
  cases as with
  | none =>
    obtain rfl : a = [] := by simp only [attributes] at ha; exact ha
    cases b with
    | nil => rfl
    | cons w b => simp at hb; simp [afterAttributes, hb]
  | some as =>
    simp only [attributes] at ha
    obtain ⟨_, _, rfl, rfl, x, _, rfl, hx, rfl⟩ := ha
    have := closing_balanced (bal_extAttrs as x hx) 0 (c!"]" :: b)
    simp [afterAttributes, this, closing]

theorem kind_classify (d : Definition) {ls : List Str} (h : definition d ls) :
    classify (afterAttributes ls) = some (kind d) := by
  obtain ⟨a, b, rfl, h1, h2, h3⟩ := kind_split d h
  rw [after_attributes h1 h3, h2]

end Verif
