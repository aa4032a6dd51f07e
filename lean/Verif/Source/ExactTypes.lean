import Verif.Source.Exact
import Verif.Properties.Parts
import Verif.Properties.Expand

/-!
# Every value of a type without parameters is the result of a text

If the parts of a value are `Legal`, the AST it is the value of can be printed, and the type's own parser reads it back.
-/

namespace Verif.Source.Exact
open Spec Properties

/-- Every value whose parts are `Legal` is the result of a text. -/
def Made (T : RTy) : Prop := ∀ v, HasType crateItems T v → (∀ u, Part u v → Legal u) → ∃ s, ExpandedReturns T s (.ok [] v)

theorem made {α : Type} {T : RTy} {g : G α} {f : α → Val} {W : α → Prop} (hT : TypeOf T g f) (hO : ∀ n, Onto n T f W)
    (h : ∀ a, W a → ∃ s, g.parse s = .ok [] a) : Made T := by
  intro v hv hl
  obtain ⟨a, rfl, w⟩ := hO _ v ⟨hv, hl, Nat.le_refl _⟩
  obtain ⟨s, e⟩ := h a w
  have := C50_parser hT s
  rw [e] at this
  exact ⟨s, this⟩

theorem text {α : Type} {g : G α} {L : α → Lang} (h : PartOf g L ∨ WholeOf g L) {a : α} (hl : ∃ ls, L a ls) : ∃ s, g.parse s = .ok [] a := by
  obtain ⟨ls, hl⟩ := hl
  exact ⟨spaced ls, (C47_text h _ _).2 ⟨[], ls, _, rfl, .nil, hl, text_spaced ls⟩⟩

theorem part {α : Type} {T : RTy} {g : G α} {f : α → Val} {W : α → Prop} {L : α → Lang} (hT : TypeOf T g f) (hP : PartOf g L)
    (hO : ∀ n, Onto n T f W) (h : ∀ a, W a → ∃ ls, L a ls) : Made T :=
  made hT hO fun a w => text (.inl hP) (h a w)

theorem whole {α : Type} {T : RTy} {g : G α} {f : α → Val} {W : α → Prop} {L : α → Lang} (hT : TypeOf T g f) (hP : WholeOf g L)
    (hO : ∀ n, Onto n T f W) (h : ∀ a, W a → ∃ ls, L a ls) : Made T :=
  made hT hO fun a w => text (.inr hP) (h a w)

/-- The type of the value in a variant of an enum. -/
theorem variant {α : Type} {x y : Str} {T : RTy} {us : List (Str × RTy)} {g : G α} {f : α → Val} {W : α → Prop} {L : α → Lang}
    (hm : .enum x us ∈ crateItems) (hy : (y, T) ∈ us) (hx : x ≠ c!"RecordKeyType") (hT : TypeOf T g fun a => (f a).payload)
    (hP : PartOf g L ∨ WholeOf g L) (hO : ∀ n, Onto n (.path0 x) f W) (h : ∀ a w, Val.variant x y w = f a → W a → ∃ ls, L a ls) : Made T := by
  intro v hv hl
  have hl' : ∀ u, Part u (.variant x y v) → Legal u := by
    intro u hu
    cases hu with
    | refl =>
      constructor
      case key => intro n w e; cases e; exact absurd rfl hx
      all_goals intro _ e; cases e
    | variant hu => exact hl u hu
  obtain ⟨a, e, w⟩ := hO _ _ ⟨.variant hm hy hv, hl', Nat.le_refl _⟩
  obtain ⟨s, e'⟩ := text hP (h a v e w)
  have := C50_parser hT s
  rw [e'] at this
  simp only [resMap, ← e] at this
  exact ⟨s, this⟩

/-! ## Lists -/

theorem reads_spaced {ls : List Str} (hg : ∀ w ∈ ls, Solid w ∨ Number w) : Reads CStep (spaced ls) ls [] := by
  by_cases hl : ls = []
  · subst hl; exact .nil
  · exact spelled_reads_lexemes (t := []) .nil (textThen_nil.1 (text_spaced ls)) hl hg (ended_strip (.inl rfl))

theorem ko_nil {α : Type} {g : G α} (hg : Guarded true g true) : Ko charLeaf g [] := by
  refine ko_of_not_ok exact_char hg fun r a h => ?_
  have h1 := parseWith_fine exact_char.fine hg []
  rw [G.parseWith, h] at h1
  have := h1.2 rfl
  simp at this

theorem many {α : Type} {g : G α} {L : α → Lang} (h : WholeOf g L) (hg : Guarded true g true) {as : List α} {ls : List Str}
    (hl : concat (as.map L) ls) : ∃ s, (G.many0 g).parse s = .ok [] as := by
  refine ⟨spaced ls, ?_⟩
  exact okMany0 exact_char hg (ok_chain exact_char hg (fun a _ _ => h.whole.ok a) as
    ⟨ls, hl, reads_spaced (Verif.Good.lexemes (AllGood.concat h.whole.good as ls hl))⟩) (ko_nil hg)

theorem elems {α : Type} {g : G α} {L : α → Lang} (h : ∀ a {ls s r}, L a ls → Reads CStep s ls r → StopAt CStep r → Ok charLeaf g s r a) :
    ∀ {as : List α} {s r : Str}, RL CStep (sepBy comma (as.map L)) s r → StopAt CStep r →
      Elems ((G.punct .comma).run charLeaf (ntLim charLeaf)) (g.run charLeaf (ntLim charLeaf)) s as r
  | [], s, r, hl, _ => rl_eps.1 hl
  | [a], s, r, ⟨ls, hl, hr⟩, hs => ⟨r, h a hl hr hs, .nil⟩
  | a :: b :: as, s, r, hl, hs => by
    obtain ⟨m, ⟨l, h1, h1'⟩, n, h2, h3⟩ := rl_sepBy.1 hl
    have h2 := rl_tok.1 h2
    exact elems_cons exact_char (guarded_punct _) (h a h1 h1' (closer_stop exact_char (by decide) h2)) (okPunct exact_char (p := .comma) h2)
      (by simp) (elems h h3 hs)

theorem commas {α : Type} {g : G α} {L : α → Lang} (hg : Guarded true g true) (hL : ∀ a, Loose (L a))
    (h : ∀ a {ls s r}, L a ls → Reads CStep s ls r → StopAt CStep r → Ok charLeaf g s r a) {as : List α} {ls : List Str}
    (hl : sepBy comma (as.map L) ls) : ∃ s, (G.commaList g).parse s = .ok [] as := by
  have hg' : ∀ w ∈ ls, Solid w ∨ Number w := fun w hw => Verif.Good.lexemes
    ((Loose.sepBy (As := as.map L) (by simpa using fun a _ => hL a) ls hl).1 c!";" (by simp [Stop]) [] trivial) w (List.mem_append_left _ hw)
  exact ⟨spaced ls, okCommaList exact_char hg (elems h ⟨ls, hl, reads_spaced hg'⟩ (.inl rfl)) (ko_nil (guarded_punct _)) (ko_nil hg)⟩

theorem strings {vs : List Str} (hn : vs ≠ []) {ls : List Str} (hl : sepBy comma (vs.map Spec.string) ls) :
    ∃ s, G.enumValueList.parse s = .ok [] vs := by
  have hg' : ∀ w ∈ ls, Solid w ∨ Number w := fun w hw => Verif.Good.lexemes
    ((Loose.sepBy (As := vs.map Spec.string) (by simpa using fun a _ => part_stringLit.loose a) ls hl).1 c!";" (by simp [Stop]) [] trivial) w
      (List.mem_append_left _ hw)
  have kc : Ko charLeaf (G.punct .comma) [] := ko_nil (guarded_punct _)
  exact ⟨spaced ls, OkAt.bind (okSepNonempty exact_char guarded_stringLit (guarded_punct _) hn (okStrings exact_char ⟨ls, hl, reads_spaced hg'⟩)
    (.inl kc)) (.bind (.none kc) .pure)⟩

/-! ## The lists of the model -/

theorem sep {α : Type} {L : α → Lang} {w : Str} : ∀ {as : List α}, (∀ a ∈ as, ∃ ls, L a ls) → ∃ ls, sepBy (tok w) (as.map L) ls
  | [], _ => ⟨[], rfl⟩
  | [a], h => h a (by simp)
  | a :: b :: as, h => by
    obtain ⟨ls, h1⟩ := h a (by simp)
    obtain ⟨ms, h2⟩ := sep (as := b :: as) fun c hc => h c (List.mem_cons_of_mem _ hc)
    exact ⟨_, Pr.seq h1 (Pr.cons h2)⟩

theorem cat {α : Type} {L : α → Lang} {as : List α} (h : ∀ a ∈ as, ∃ ls, L a ls) : ∃ ls, concat (as.map L) ls := by
  induction as with
  | nil => exact ⟨[], rfl⟩
  | cons a as ih =>
    obtain ⟨ls, h1⟩ := h a (by simp)
    obtain ⟨ms, h2⟩ := ih fun b hb => h b (by simp [hb])
    exact ⟨_, Pr.seq h1 h2⟩

theorem argumentList (n : Nat) : Onto n (.path0 c!"ArgumentList") (fun as : List Argument => punctuatedVal (punctVal .comma) (as.map argumentVal))
    fun as => ∀ a ∈ as, WfArgument a := by
  intro v g
  obtain ⟨vs, rfl, hb⟩ := list_inv (fun _ => punct .comma) (g.alias mArgumentList)
  obtain ⟨as, rfl, w⟩ := all (block n).arg hb
  exact ⟨as, rfl, w⟩

theorem identList (n : Nat) : Onto n (.path0 c!"IdentifierList") (fun as : List Str => punctuatedVal (punctVal .comma) (as.map identVal))
    fun as => ∀ a ∈ as, WfName a := by
  intro v g
  obtain ⟨vs, rfl, hb⟩ := list_inv (fun _ => punct .comma) (g.alias mIdentifierList)
  obtain ⟨as, rfl, w⟩ := all (ident n) hb
  exact ⟨as, rfl, w⟩

theorem extAttrList (n : Nat) : Onto n (.path0 c!"ExtendedAttributeList")
    (fun as : List ExtAttr => bracketVal (punctuatedVal (punctVal .comma) (as.map extAttrVal))) fun as => ∀ a ∈ as, WfExtAttr a := by
  intro v g
  obtain ⟨w, rfl, ha⟩ := bracket_inv ((g.le (Nat.le_succ n)).alias mExtendedAttributeList)
  obtain ⟨vs, rfl, hb⟩ := list_inv (fun _ => punct .comma) ha
  obtain ⟨as, rfl, w⟩ := all (block n).attr hb
  exact ⟨as, rfl, w⟩

theorem unionType (n : Nat) : Onto n (.path0 c!"UnionType") (fun ms : List UnionMember => parenVal (punctuatedVal (kwVal .or) (ms.map unionMemberVal)))
    fun ms => ∀ m ∈ ms, WfUnionMember m := by
  intro v g
  obtain ⟨w, rfl, ha⟩ := paren_inv ((g.le (Nat.le_succ n)).alias mUnionType)
  obtain ⟨vs, rfl, hb⟩ := list_inv (fun _ => kw .or) ha
  obtain ⟨as, rfl, w⟩ := all (block n).member hb
  exact ⟨as, rfl, w⟩

theorem enumValues (n : Nat) : Onto n (.path0 c!"EnumValueList") (fun vs : List Str => punctuatedNonEmptyVal (punctVal .comma) (vs.map stringVal))
    fun vs => (∀ v ∈ vs, WfString v) ∧ vs ≠ [] := by
  intro v g
  obtain ⟨vs, rfl, hb, hn⟩ := nonempty_inv (fun _ => punct .comma) (g.alias mEnumValueList)
  obtain ⟨as, rfl, w⟩ := all (string n) hb
  exact ⟨as, rfl, w, by simpa using hn⟩

theorem sequenceType (n : Nat) : Onto n (.path0 c!"SequenceType") (fun t => .struct c!"SequenceType"
    [(c!"sequence", kwVal .sequence), (c!"generics", genericsVal (.box (typeVal t)))]) WfType := by
  intro v g
  obtain ⟨_, rfl, ⟨w0, _, rfl, g0, w1, _, rfl, g1, rfl⟩, l⟩ := g.struct mSequenceType
  obtain rfl := kw .sequence g0
  obtain ⟨a, rfl, x⟩ := (genericType (block n)).of_succ _ g1
  exact ⟨a, rfl, x⟩

theorem frozenArrayType (n : Nat) : Onto n (.path0 c!"FrozenArrayType") (fun t => .struct c!"FrozenArrayType"
    [(c!"frozen_array", kwVal .frozenArray), (c!"generics", genericsVal (.box (typeVal t)))]) WfType := by
  intro v g
  obtain ⟨_, rfl, ⟨w0, _, rfl, g0, w1, _, rfl, g1, rfl⟩, l⟩ := g.struct mFrozenArrayType
  obtain rfl := kw .frozenArray g0
  obtain ⟨a, rfl, x⟩ := (genericType (block n)).of_succ _ g1
  exact ⟨a, rfl, x⟩

theorem recordType (n : Nat) : Onto n (.path0 c!"RecordType") (fun kv : RecordKeyType × Ty => .struct c!"RecordType"
    [(c!"record", kwVal .record), (c!"generics", genericsVal
      (.triple (.box (recordKeyTypeVal kv.1)) (punctVal .comma) (.box (typeVal kv.2))))]) fun kv => WfRecordKeyType kv.1 ∧ WfType kv.2 := by
  intro v g
  obtain ⟨_, rfl, ⟨w0, _, rfl, g0, w1, _, rfl, g1, rfl⟩, l⟩ := g.struct mRecordType
  obtain rfl := kw .record g0
  obtain ⟨a, rfl, x⟩ := (genericRecord (block n)).of_succ _ g1
  exact ⟨a, rfl, x⟩

/-! ## All types -/

theorem madeArgumentList : Made (.path0 c!"ArgumentList") :=
  made (W := fun as => ∀ a ∈ as, WfArgument a) .argumentList (fun n => argumentList n) fun as h => by
    obtain ⟨ls, hl⟩ := sep (fun a ha => ⟨_, pr_argument a (h a ha)⟩)
    exact commas (guarded_call _) (L := Spec.argument) loose_argument (fun a _ _ _ h1 h2 h3 => okCall exact_char (N := .argument) (ok_argument exact_char a h1 h2 h3)) hl

theorem madeArgument : Made (.path0 c!"Argument") :=
  part .argument .argument (fun n => ((block n).arg)) fun a h => ⟨_, pr_argument a h⟩

theorem madeSingleArgument : Made (.path0 c!"SingleArgument") :=
  variant mArgument (y := c!"Single") (by decide) (by decide) .singleArgument (.inl .singleArgument) (fun n => (block n).arg) fun a w e h =>
    ⟨_, (by cases a <;> first | rfl | cases e), pr_argument a h⟩

theorem madeVariadicArgument : Made (.path0 c!"VariadicArgument") :=
  variant mArgument (y := c!"Variadic") (by decide) (by decide) .variadicArgument (.inl .variadicArgument) (fun n => (block n).arg) fun a w e h =>
    ⟨_, (by cases a <;> first | rfl | cases e), pr_argument a h⟩

theorem madeExtendedAttributeList : Made (.path0 c!"ExtendedAttributeList") :=
  part (W := fun as => ∀ a ∈ as, WfExtAttr a) .extendedAttributeList .extAttrList (fun n => extAttrList n) fun as h => by
    obtain ⟨ls, hl⟩ := sep (fun a ha => ⟨_, pr_extAttr a (h a ha)⟩)
    exact ⟨_, Pr.cons (Pr.seq hl rfl)⟩

theorem madeIdentifierList : Made (.path0 c!"IdentifierList") :=
  made (W := fun as => ∀ a ∈ as, WfName a) .identifierList (fun n => identList n) fun as h => by
    obtain ⟨ls, hl⟩ := sep (fun a ha => ⟨_, Pr.name (h a ha)⟩)
    exact commas guarded_ident (L := Spec.name) part_ident.loose (fun a _ _ _ h1 h2 h3 => part_ident.ok a h1 h2 h3) hl

theorem madeExtendedAttribute : Made (.path0 c!"ExtendedAttribute") :=
  part .extendedAttribute .extAttr (fun n => (block n).attr) fun a h => ⟨_, pr_extAttr a h⟩

theorem madeExtendedAttributeArgList : Made (.path0 c!"ExtendedAttributeArgList") :=
  variant mExtendedAttribute (y := c!"ArgList") (by decide) (by decide) .extendedAttributeArgList (.inl .extAttrArgList) (fun n => (block n).attr) fun a w e h =>
    ⟨_, (by cases a <;> first | rfl | cases e), pr_extAttr a h⟩

theorem madeExtendedAttributeNamedArgList : Made (.path0 c!"ExtendedAttributeNamedArgList") :=
  variant mExtendedAttribute (y := c!"NamedArgList") (by decide) (by decide) .extendedAttributeNamedArgList (.inl .extAttrNamedArgList) (fun n => (block n).attr) fun a w e h =>
    ⟨_, (by cases a <;> first | rfl | cases e), pr_extAttr a h⟩

theorem madeExtendedAttributeIdentList : Made (.path0 c!"ExtendedAttributeIdentList") :=
  variant mExtendedAttribute (y := c!"IdentList") (by decide) (by decide) .extendedAttributeIdentList (.inl .extAttrIdentList) (fun n => (block n).attr) fun a w e h =>
    ⟨_, (by cases a <;> first | rfl | cases e), pr_extAttr a h⟩

theorem madeExtendedAttributeIdent : Made (.path0 c!"ExtendedAttributeIdent") :=
  variant mExtendedAttribute (y := c!"Ident") (by decide) (by decide) .extendedAttributeIdent (.inl .extAttrIdent) (fun n => (block n).attr) fun a w e h =>
    ⟨_, (by cases a <;> first | rfl | cases e), pr_extAttr a h⟩

theorem madeExtendedAttributeWildCard : Made (.path0 c!"ExtendedAttributeWildCard") :=
  variant mExtendedAttribute (y := c!"Wildcard") (by decide) (by decide) .extendedAttributeWildCard (.inl .extAttrWildcard) (fun n => (block n).attr) fun a w e h =>
    ⟨_, (by cases a <;> first | rfl | cases e), pr_extAttr a h⟩

theorem madeExtendedAttributeNoArgs : Made (.path0 c!"ExtendedAttributeNoArgs") :=
  variant mExtendedAttribute (y := c!"NoArgs") (by decide) (by decide) .extendedAttributeNoArgs (.inl .extAttrNoArgs) (fun n => (block n).attr) fun a w e h =>
    ⟨_, (by cases a <;> first | rfl | cases e), pr_extAttr a h⟩

theorem madeIdentifierOrString : Made (.path0 c!"IdentifierOrString") :=
  part .identifierOrString .identifierOrString idOrString fun _ h => ⟨_, pr_idOrString h⟩

theorem madeIdentifier : Made (.path0 c!"Identifier") :=
  part .identifier .ident ident fun _ h => ⟨_, Pr.name h⟩

theorem madeDefault : Made (.path0 c!"Default") :=
  part .default .default default fun _ h => ⟨_, Pr.cons (pr_defaultValue h)⟩

theorem madeDictionaryMembers : Made (.path0 c!"DictionaryMembers") :=
  made (W := fun as => ∀ a ∈ as, WfDictionaryMember a) .dictionaryMembers (fun n v h => vec dictionaryMember v (h.alias mDictionaryMembers)) fun as h => by
    obtain ⟨ls, hl⟩ := cat (fun a ha => ⟨_, pr_dictionaryMember (h a ha)⟩)
    exact many .dictionaryMember inferInstance hl

theorem madeDictionaryMember : Made (.path0 c!"DictionaryMember") :=
  whole .dictionaryMember .dictionaryMember (fun _ => dictionaryMember) fun _ h => ⟨_, pr_dictionaryMember h⟩

theorem madeInterfaceMembers : Made (.path0 c!"InterfaceMembers") :=
  made (W := fun as => ∀ a ∈ as, WfInterfaceMember a) .interfaceMembers (fun n v h => vec interfaceMember v (h.alias mInterfaceMembers)) fun as h => by
    obtain ⟨ls, hl⟩ := cat (fun a ha => ⟨_, pr_interfaceMember (h a ha)⟩)
    exact many .interfaceMember inferInstance hl

theorem madeInheritance : Made (.path0 c!"Inheritance") :=
  part .inheritance .inheritance (fun _ => inheritance) fun _ h => ⟨_, Pr.cons (Pr.name h)⟩

theorem madeInterfaceMember : Made (.path0 c!"InterfaceMember") :=
  whole .interfaceMember .interfaceMember (fun _ => interfaceMember) fun _ h => ⟨_, pr_interfaceMember h⟩

theorem madeConstMember : Made (.path0 c!"ConstMember") :=
  whole .constMember .constMember (fun _ => constMember) fun _ h => ⟨_, pr_const h⟩

theorem madeAttributeInterfaceMember : Made (.path0 c!"AttributeInterfaceMember") :=
  whole .attributeInterfaceMember .attributeInterfaceMember (fun _ => attributeInterfaceMember) fun m h => ⟨_, pr_interfaceMember (m := .attribute m) h⟩

theorem madeConstructorInterfaceMember : Made (.path0 c!"ConstructorInterfaceMember") :=
  whole .constructorInterfaceMember .constructorInterfaceMember (fun _ => constructorInterfaceMember) fun m h => ⟨_, pr_interfaceMember (m := .constructor m) h⟩

theorem madeOperationInterfaceMember : Made (.path0 c!"OperationInterfaceMember") :=
  whole .operationInterfaceMember .operationInterfaceMember (fun _ => operationInterfaceMember) fun m h => by
    obtain ⟨a, b, e, h1, h2⟩ := pr_interfaceMember (m := .operation m) h
    exact ⟨_, a, b, e, h1, h2.1⟩

theorem madeIterableInterfaceMember : Made (.path0 c!"IterableInterfaceMember") :=
  whole .iterableInterfaceMember .iterable (fun _ => iterable) fun m h => ⟨_, pr_interfaceMember (m := .iterable m) h⟩

theorem madeSingleTypedIterable : Made (.path0 c!"SingleTypedIterable") :=
  variant mIterableInterfaceMember (y := c!"Single") (by decide) (by decide) .singleTypedIterable (.inr .singleTypedIterable) (fun _ => iterable) fun a w e h =>
    ⟨_, (by cases a <;> first | rfl | cases e), pr_interfaceMember (m := .iterable a) h⟩

theorem madeDoubleTypedIterable : Made (.path0 c!"DoubleTypedIterable") :=
  variant mIterableInterfaceMember (y := c!"Double") (by decide) (by decide) .doubleTypedIterable (.inr .doubleTypedIterable) (fun _ => iterable) fun a w e h =>
    ⟨_, (by cases a <;> first | rfl | cases e), pr_interfaceMember (m := .iterable a) h⟩

theorem madeAsyncIterableInterfaceMember : Made (.path0 c!"AsyncIterableInterfaceMember") :=
  whole .asyncIterableInterfaceMember .asyncIterable (fun _ => async) fun m h => ⟨_, pr_interfaceMember (m := .asyncIterable m) h⟩

theorem madeSingleTypedAsyncIterable : Made (.path0 c!"SingleTypedAsyncIterable") :=
  variant mAsyncIterableInterfaceMember (y := c!"Single") (by decide) (by decide) .singleTypedAsyncIterable (.inr .singleTypedAsyncIterable) (fun _ => async) fun a w e h =>
    ⟨_, (by cases a <;> first | rfl | cases e), pr_interfaceMember (m := .asyncIterable a) h⟩

theorem madeDoubleTypedAsyncIterable : Made (.path0 c!"DoubleTypedAsyncIterable") :=
  variant mAsyncIterableInterfaceMember (y := c!"Double") (by decide) (by decide) .doubleTypedAsyncIterable (.inr .doubleTypedAsyncIterable) (fun _ => async) fun a w e h =>
    ⟨_, (by cases a <;> first | rfl | cases e), pr_interfaceMember (m := .asyncIterable a) h⟩

theorem madeMaplikeInterfaceMember : Made (.path0 c!"MaplikeInterfaceMember") :=
  whole .maplikeInterfaceMember .maplike (fun _ => maplikeInterfaceMember) fun m h => ⟨_, pr_interfaceMember (m := .maplike m) h⟩

theorem madeSetlikeInterfaceMember : Made (.path0 c!"SetlikeInterfaceMember") :=
  whole .setlikeInterfaceMember .setlike (fun _ => setlikeInterfaceMember) fun m h => ⟨_, pr_interfaceMember (m := .setlike m) h⟩

theorem madeStringifierMember : Made (.path0 c!"StringifierMember") :=
  whole .stringifierMember .stringifier (fun _ => stringifierMember) fun m h => ⟨_, pr_interfaceMember (m := .stringifier m) h⟩

theorem madeSpecial : Made (.path0 c!"Special") :=
  part .special .special (fun _ => special) fun a _ => by cases a <;> exact ⟨_, rfl⟩

theorem madeStringifierOrInheritOrStatic : Made (.path0 c!"StringifierOrInheritOrStatic") :=
  part .stringifierOrInheritOrStatic .stringifierOrInheritOrStatic (fun _ => stringifierOrInheritOrStatic) fun a _ => by cases a <;> exact ⟨_, rfl⟩

theorem madeStringifierOrStatic : Made (.path0 c!"StringifierOrStatic") :=
  part .stringifierOrStatic .stringifierOrStatic (fun _ => stringifierOrStatic) fun a _ => by cases a <;> exact ⟨_, rfl⟩

theorem madeDefinitions : Made (.path0 c!"Definitions") :=
  made (W := fun as => ∀ a ∈ as, WfDefinition a) .definitions (fun n v h => vec definition v (h.alias mDefinitions)) fun as h => by
    obtain ⟨ls, hl⟩ := cat (fun a ha => ⟨_, pr_definition (h a ha)⟩)
    exact many .definition inferInstance hl

theorem madeDefinition : Made (.path0 c!"Definition") :=
  whole .definition .definition (fun _ => definition) fun _ h => ⟨_, pr_definition h⟩

theorem madeCallbackDefinition : Made (.path0 c!"CallbackDefinition") :=
  variant mDefinition (y := c!"Callback") (by decide) (by decide) .callbackDefinition (.inr .callback) (fun _ => definition) fun a w e h =>
    ⟨_, (by cases a <;> first | rfl | cases e), pr_definition h⟩

theorem madeCallbackInterfaceDefinition : Made (.path0 c!"CallbackInterfaceDefinition") :=
  variant mDefinition (y := c!"CallbackInterface") (by decide) (by decide) .callbackInterfaceDefinition (.inr .callbackInterface) (fun _ => definition) fun a w e h =>
    ⟨_, (by cases a <;> first | rfl | cases e), pr_definition h⟩

theorem madeInterfaceDefinition : Made (.path0 c!"InterfaceDefinition") :=
  variant mDefinition (y := c!"Interface") (by decide) (by decide) .interfaceDefinition (.inr .interface) (fun _ => definition) fun a w e h =>
    ⟨_, (by cases a <;> first | rfl | cases e), pr_definition h⟩

theorem madeInterfaceMixinDefinition : Made (.path0 c!"InterfaceMixinDefinition") :=
  variant mDefinition (y := c!"InterfaceMixin") (by decide) (by decide) .interfaceMixinDefinition (.inr .interfaceMixin) (fun _ => definition) fun a w e h =>
    ⟨_, (by cases a <;> first | rfl | cases e), pr_definition h⟩

theorem madeNamespaceDefinition : Made (.path0 c!"NamespaceDefinition") :=
  variant mDefinition (y := c!"Namespace") (by decide) (by decide) .namespaceDefinition (.inr .«namespace») (fun _ => definition) fun a w e h =>
    ⟨_, (by cases a <;> first | rfl | cases e), pr_definition h⟩

theorem madeDictionaryDefinition : Made (.path0 c!"DictionaryDefinition") :=
  variant mDefinition (y := c!"Dictionary") (by decide) (by decide) .dictionaryDefinition (.inr .dictionary) (fun _ => definition) fun a w e h =>
    ⟨_, (by cases a <;> first | rfl | cases e), pr_definition h⟩

theorem madePartialInterfaceDefinition : Made (.path0 c!"PartialInterfaceDefinition") :=
  variant mDefinition (y := c!"PartialInterface") (by decide) (by decide) .partialInterfaceDefinition (.inr .partialInterface) (fun _ => definition) fun a w e h =>
    ⟨_, (by cases a <;> first | rfl | cases e), pr_definition h⟩

theorem madePartialInterfaceMixinDefinition : Made (.path0 c!"PartialInterfaceMixinDefinition") :=
  variant mDefinition (y := c!"PartialInterfaceMixin") (by decide) (by decide) .partialInterfaceMixinDefinition (.inr .partialInterfaceMixin) (fun _ => definition) fun a w e h =>
    ⟨_, (by cases a <;> first | rfl | cases e), pr_definition h⟩

theorem madePartialDictionaryDefinition : Made (.path0 c!"PartialDictionaryDefinition") :=
  variant mDefinition (y := c!"PartialDictionary") (by decide) (by decide) .partialDictionaryDefinition (.inr .partialDictionary) (fun _ => definition) fun a w e h =>
    ⟨_, (by cases a <;> first | rfl | cases e), pr_definition h⟩

theorem madePartialNamespaceDefinition : Made (.path0 c!"PartialNamespaceDefinition") :=
  variant mDefinition (y := c!"PartialNamespace") (by decide) (by decide) .partialNamespaceDefinition (.inr .partialNamespace) (fun _ => definition) fun a w e h =>
    ⟨_, (by cases a <;> first | rfl | cases e), pr_definition h⟩

theorem madeEnumDefinition : Made (.path0 c!"EnumDefinition") :=
  variant mDefinition (y := c!"Enum") (by decide) (by decide) .enumDefinition (.inr .enum) (fun _ => definition) fun a w e h =>
    ⟨_, (by cases a <;> first | rfl | cases e), pr_definition h⟩

theorem madeTypedefDefinition : Made (.path0 c!"TypedefDefinition") :=
  variant mDefinition (y := c!"Typedef") (by decide) (by decide) .typedefDefinition (.inr .typedef) (fun _ => definition) fun a w e h =>
    ⟨_, (by cases a <;> first | rfl | cases e), pr_definition h⟩

theorem madeIncludesStatementDefinition : Made (.path0 c!"IncludesStatementDefinition") :=
  variant mDefinition (y := c!"IncludesStatement") (by decide) (by decide) .includesStatementDefinition (.inr .includes) (fun _ => definition) fun a w e h => by
    cases a with
    | includesStatement as l r =>
      obtain ⟨a, b, e, h1, a', b', e', h2, h3⟩ := pr_definition h
      exact ⟨_, a, b, e, h1, a', b', e', h2.1, h3⟩
    | _ => cases e

theorem madeImplementsDefinition : Made (.path0 c!"ImplementsDefinition") :=
  variant mDefinition (y := c!"Implements") (by decide) (by decide) .implementsDefinition (.inr .implements) (fun _ => definition) fun a w e h => by
    cases a with
    | implements as l r =>
      obtain ⟨a, b, e, h1, a', b', e', h2, h3⟩ := pr_definition h
      exact ⟨_, a, b, e, h1, a', b', e', h2.1, h3⟩
    | _ => cases e

theorem madeEnumValueList : Made (.path0 c!"EnumValueList") :=
  made (W := fun as => (∀ a ∈ as, WfString a) ∧ as ≠ []) .enumValueList (fun n => enumValues n) fun as h => by
    obtain ⟨ls, hl⟩ := sep (fun a ha => ⟨_, Pr.string (h.1 a ha)⟩)
    exact strings h.2 hl

theorem madeIntegerLit : Made (.path0 c!"IntegerLit") :=
  part .integerLit .integerLit integerLit fun _ h => ⟨_, pr_integer h⟩

theorem madeDecLit : Made (.path0 c!"DecLit") :=
  part .decLit .decLit dec fun _ h => ⟨_, h, rfl⟩

theorem madeHexLit : Made (.path0 c!"HexLit") :=
  part .hexLit .hexLit hex fun _ h => ⟨_, h, rfl⟩

theorem madeOctLit : Made (.path0 c!"OctLit") :=
  part .octLit .octLit oct fun _ h => ⟨_, h, rfl⟩

theorem madeStringLit : Made (.path0 c!"StringLit") :=
  part .stringLit .stringLit string fun _ h => ⟨_, Pr.string h⟩

theorem madeDefaultValue : Made (.path0 c!"DefaultValue") :=
  part .defaultValue .defaultValue defaultValue fun _ h => ⟨_, pr_defaultValue h⟩

theorem madeEmptyArrayLit : Made (.path0 c!"EmptyArrayLit") :=
  part (W := fun _ => True) .emptyArrayLit .emptyArrayLit (fun _ _ h => ⟨(), emptyArray h, trivial⟩) fun _ _ => ⟨_, Pr.cons rfl⟩

theorem madeEmptyDictionaryLit : Made (.path0 c!"EmptyDictionaryLit") :=
  part (W := fun _ => True) .emptyDictionaryLit .emptyDictionaryLit (fun _ _ h => ⟨(), emptyDictionary h, trivial⟩) fun _ _ => ⟨_, Pr.cons rfl⟩

theorem madeConstValue : Made (.path0 c!"ConstValue") :=
  part .constValue .constValue constValue fun _ h => ⟨_, pr_constValue h⟩

theorem madeBooleanLit : Made (.path0 c!"BooleanLit") :=
  part .booleanLit .booleanLit boolean fun a _ => ⟨_, pr_boolean a⟩

theorem madeFloatLit : Made (.path0 c!"FloatLit") :=
  part .floatLit .floatLit floatLit fun _ h => ⟨_, pr_float h⟩

theorem madeFloatValueLit : Made (.path0 c!"FloatValueLit") :=
  part .floatValueLit .floatValueLit floatValue fun _ h => ⟨_, h, rfl⟩

theorem madeMixinMembers : Made (.path0 c!"MixinMembers") :=
  made (W := fun as => ∀ a ∈ as, WfMixinMember a) .mixinMembers (fun n v h => vec mixinMember v (h.alias mMixinMembers)) fun as h => by
    obtain ⟨ls, hl⟩ := cat (fun a ha => ⟨_, pr_mixinMember (h a ha)⟩)
    exact many .mixinMember inferInstance hl

theorem madeMixinMember : Made (.path0 c!"MixinMember") :=
  whole .mixinMember .mixinMember (fun _ => mixinMember) fun _ h => ⟨_, pr_mixinMember h⟩

theorem madeOperationMixinMember : Made (.path0 c!"OperationMixinMember") :=
  whole .operationMixinMember .operationMixinMember (fun _ => operationMixinMember) fun m h => ⟨_, pr_mixinMember (m := .operation m) h⟩

theorem madeAttributeMixinMember : Made (.path0 c!"AttributeMixinMember") :=
  whole .attributeMixinMember .attributeMixinMember (fun _ => attributeMixinMember) fun m h => ⟨_, pr_mixinMember (m := .attribute m) h⟩

theorem madeNamespaceMembers : Made (.path0 c!"NamespaceMembers") :=
  made (W := fun as => ∀ a ∈ as, WfNamespaceMember a) .namespaceMembers (fun n v h => vec namespaceMember v (h.alias mNamespaceMembers)) fun as h => by
    obtain ⟨ls, hl⟩ := cat (fun a ha => ⟨_, pr_namespaceMember (h a ha)⟩)
    exact many .namespaceMember inferInstance hl

theorem madeNamespaceMember : Made (.path0 c!"NamespaceMember") :=
  whole .namespaceMember .namespaceMember (fun _ => namespaceMember) fun _ h => ⟨_, pr_namespaceMember h⟩

theorem madeConstNamespaceMember : Made (.path0 c!"ConstNamespaceMember") :=
  whole .constNamespaceMember .constMember (fun _ => constNamespaceMember) fun _ h => ⟨_, pr_const h⟩

theorem madeOperationNamespaceMember : Made (.path0 c!"OperationNamespaceMember") :=
  whole .operationNamespaceMember .operationNamespaceMember (fun _ => operationNamespaceMember) fun m h => ⟨_, pr_namespaceMember (m := .operation m) h⟩

theorem madeAttributeNamespaceMember : Made (.path0 c!"AttributeNamespaceMember") :=
  whole .attributeNamespaceMember .attributeNamespaceMember (fun _ => attributeNamespaceMember) fun m h => ⟨_, pr_namespaceMember (m := .attribute m) h⟩

theorem madeUnionType : Made (.path0 c!"UnionType") :=
  part (W := fun as => ∀ a ∈ as, WfUnionMember a) .unionType .unionType (fun n => unionType n) fun as h => by
    obtain ⟨ls, hl⟩ := sep (fun a ha => ⟨_, pr_unionMember a (h a ha)⟩)
    exact ⟨_, Pr.cons (Pr.seq hl rfl)⟩

theorem madeType : Made (.path0 c!"Type") :=
  part .type .type (fun n => (block n).type) fun a h => ⟨_, pr_type a h⟩

theorem madeSingleType : Made (.path0 c!"SingleType") :=
  part .singleType .singleType (fun n => (single (block n)).of_succ) fun a h => ⟨_, pr_singleType a h⟩

theorem madeNonAnyType : Made (.path0 c!"NonAnyType") :=
  part .nonAnyType .nonAnyType (fun n => (nonAny (block n)).of_succ) fun a h => ⟨_, pr_nonAnyType a h⟩

theorem madeSequenceType : Made (.path0 c!"SequenceType") :=
  part .sequenceType .sequenceType (fun n => sequenceType n) fun a h => ⟨_, Pr.cons (Pr.cons (Pr.seq (pr_type a h) rfl))⟩

theorem madeFrozenArrayType : Made (.path0 c!"FrozenArrayType") :=
  part .frozenArrayType .frozenArrayType (fun n => frozenArrayType n) fun a h => ⟨_, Pr.cons (Pr.cons (Pr.seq (pr_type a h) rfl))⟩

theorem madePromiseType : Made (.path0 c!"PromiseType") :=
  variant mNonAnyType (y := c!"Promise") (by decide) (by decide) .promiseType (.inl .promiseType) (fun n => (nonAny (block n)).of_succ) fun a w e h =>
    ⟨_, (by cases a <;> first | exact ⟨_, rfl⟩ | (rename_i b _; cases b <;> cases e) | cases e), pr_nonAnyType a h⟩

theorem madeIntegerType : Made (.path0 c!"IntegerType") :=
  part .integerType .integerType integerType fun a _ => ⟨_, pr_integerType a⟩

theorem madeLongLongType : Made (.path0 c!"LongLongType") :=
  variant mIntegerType (y := c!"LongLong") (by decide) (by decide) .longLongType (.inl .longLongType) integerType fun a w e _ =>
    ⟨_, (by cases a <;> first | rfl | cases e), pr_integerType a⟩

theorem madeLongType : Made (.path0 c!"LongType") :=
  variant mIntegerType (y := c!"Long") (by decide) (by decide) .longType (.inl .longType) integerType fun a w e _ =>
    ⟨_, (by cases a <;> first | rfl | cases e), pr_integerType a⟩

theorem madeShortType : Made (.path0 c!"ShortType") :=
  variant mIntegerType (y := c!"Short") (by decide) (by decide) .shortType (.inl .shortType) integerType fun a w e _ =>
    ⟨_, (by cases a <;> first | rfl | cases e), pr_integerType a⟩

theorem madeFloatingPointType : Made (.path0 c!"FloatingPointType") :=
  part .floatingPointType .floatingPointType floatingPointType fun a _ => ⟨_, pr_floatingPointType a⟩

theorem madeFloatType : Made (.path0 c!"FloatType") :=
  variant mFloatingPointType (y := c!"Float") (by decide) (by decide) .floatType (.inl .floatType) floatingPointType fun a w e _ =>
    ⟨_, (by cases a <;> first | rfl | cases e), pr_floatingPointType a⟩

theorem madeDoubleType : Made (.path0 c!"DoubleType") :=
  variant mFloatingPointType (y := c!"Double") (by decide) (by decide) .doubleType (.inl .doubleType) floatingPointType fun a w e _ =>
    ⟨_, (by cases a <;> first | rfl | cases e), pr_floatingPointType a⟩

theorem madeRecordType : Made (.path0 c!"RecordType") :=
  part .recordType .recordType (fun n => recordType n) fun _ h => ⟨_, Pr.cons (Pr.cons (Pr.seq (Pr.seq (pr_recordKeyType _ h.1) (Pr.cons (pr_type _ h.2))) rfl))⟩

theorem madeRecordKeyType : Made (.path0 c!"RecordKeyType") :=
  part .recordKeyType .recordKeyType (fun n => (block n).key) fun a h => ⟨_, pr_recordKeyType a h⟩

theorem madeUnionMemberType : Made (.path0 c!"UnionMemberType") :=
  part .unionMemberType .unionMemberType (fun n => (block n).member) fun a h => ⟨_, pr_unionMember a h⟩

theorem madeConstType : Made (.path0 c!"ConstType") :=
  part .constType .constType (fun _ => constType) fun _ h => ⟨_, pr_constType h⟩

theorem madeReturnType : Made (.path0 c!"ReturnType") :=
  part .returnType .returnType (fun n => (block n).ret) fun a h => ⟨_, pr_returnType a h⟩

theorem madeAttributedType : Made (.path0 c!"AttributedType") :=
  part .attributedType .attributedType (fun n => (attributedType (block n)).of_succ) fun _ h => ⟨_, pr_attributedType h⟩

theorem madeAttributedNonAnyType : Made (.path0 c!"AttributedNonAnyType") :=
  variant mUnionMemberType (y := c!"Single") (by decide) (by decide) .attributedNonAnyType (.inl .attributedNonAnyType) (fun n => (block n).member) fun a w e h =>
    ⟨_, (by cases a <;> first | exact ⟨_, _, rfl⟩ | cases e), pr_unionMember a h⟩

theorem made_simple : ∀ n ∈ simpleNames, Made (.path0 n) := by
  simp only [simpleNames, List.forall_mem_cons]
  exact ⟨madeArgumentList, madeArgument, madeSingleArgument, madeVariadicArgument, madeExtendedAttributeList, madeIdentifierList, madeExtendedAttribute, madeExtendedAttributeArgList, madeExtendedAttributeNamedArgList, madeExtendedAttributeIdentList, madeExtendedAttributeIdent, madeExtendedAttributeWildCard, madeExtendedAttributeNoArgs, madeIdentifierOrString, madeIdentifier, madeDefault, madeDictionaryMembers, madeDictionaryMember, madeInterfaceMembers, madeInheritance, madeInterfaceMember, madeConstMember, madeAttributeInterfaceMember, madeConstructorInterfaceMember, madeOperationInterfaceMember, madeIterableInterfaceMember, madeSingleTypedIterable, madeDoubleTypedIterable, madeAsyncIterableInterfaceMember, madeSingleTypedAsyncIterable, madeDoubleTypedAsyncIterable, madeMaplikeInterfaceMember, madeSetlikeInterfaceMember, madeStringifierMember, madeSpecial, madeStringifierOrInheritOrStatic, madeStringifierOrStatic, madeDefinitions, madeDefinition, madeCallbackDefinition, madeCallbackInterfaceDefinition, madeInterfaceDefinition, madeInterfaceMixinDefinition, madeNamespaceDefinition, madeDictionaryDefinition, madePartialInterfaceDefinition, madePartialInterfaceMixinDefinition, madePartialDictionaryDefinition, madePartialNamespaceDefinition, madeEnumDefinition, madeTypedefDefinition, madeIncludesStatementDefinition, madeImplementsDefinition, madeEnumValueList, madeIntegerLit, madeDecLit, madeHexLit, madeOctLit, madeStringLit, madeDefaultValue, madeEmptyArrayLit, madeEmptyDictionaryLit, madeConstValue, madeBooleanLit, madeFloatLit, madeFloatValueLit, madeMixinMembers, madeMixinMember, madeOperationMixinMember, madeAttributeMixinMember, madeNamespaceMembers, madeNamespaceMember, madeConstNamespaceMember, madeOperationNamespaceMember, madeAttributeNamespaceMember, madeUnionType, madeType, madeSingleType, madeNonAnyType, madeSequenceType, madeFrozenArrayType, madePromiseType, madeIntegerType, madeLongLongType, madeLongType, madeShortType, madeFloatingPointType, madeFloatType, madeDoubleType, madeRecordType, madeRecordKeyType, madeUnionMemberType, madeConstType, madeReturnType, madeAttributedType, madeAttributedNonAnyType, fun _ h => nomatch h⟩

theorem made_kw (k : Kw) : Made (.path0 (kwType k)) :=
  part (W := fun _ => True) (.kw k) (.kw k) (fun _ _ h => ⟨(), kw k h, trivial⟩) fun _ _ => ⟨_, rfl⟩

theorem made_punct (p : Punct) : Made (.path0 (punctType p)) :=
  made (W := fun _ => True) (.punct p) (fun _ _ h => ⟨(), punct p h, trivial⟩) fun _ _ => ⟨p.text, by cases p <;> rfl⟩

theorem made_all {x : Str} (h : WellFormed decls (.path0 x)) : Made (.path0 x) := by
  obtain ⟨hs, d, hd, rfl, hp⟩ := h
  rcases simple_names d hd hp hs with h | h | h
  · exact made_simple _ h
  · obtain ⟨p, -, e⟩ := List.mem_map.1 h
    rw [← e]
    exact made_punct p
  · obtain ⟨k, -, e⟩ := List.mem_map.1 h
    rw [← e]
    exact made_kw k

end Verif.Source.Exact
