import Verif.Proof.SoundDef
import Verif.Proof.Number

/-!
# The lexemes that occur in documents

Every lexeme of a document is a word, a string, a symbol or a number, and every number is
followed by one of `;` `,` `)`. Only the end of a member or definition contains a `;`.
-/

namespace Verif
open Nom Spec

/-- A lexeme that is not a number. -/
def Solid (w : Str) : Prop :=
  (∃ i, name i [w]) ∨ w = c!"-Infinity" ∨ (∃ v, string v [w]) ∨
    ∃ p : Punct, p ≠ .dot ∧ p ≠ .minus ∧ w = p.text

/-- What follows a number. -/
def Stop (p : Str) : Prop := p ∈ [c!";", c!",", c!")"]

def Good : List Str → Prop
  | [] => True
  | w :: ls => (Solid w ∨ Number w ∧ ∃ p ls', ls = p :: ls' ∧ Stop p) ∧ Good ls

theorem Good.append {a b : List Str} (ha : Good a) (hb : Good b) : Good (a ++ b) := by
  induction a with
  | nil => exact hb
  | cons w a ih =>
    refine ⟨?_, ih ha.2⟩
    rcases ha.1 with h | ⟨h, p, ls', rfl, h'⟩
    · exact .inl h
    · exact .inr ⟨h, p, ls' ++ b, rfl, h'⟩

theorem Solid.good {w : Str} {b : List Str} (h : Solid w) (hb : Good b) : Good (w :: b) := ⟨.inl h, hb⟩

theorem solid_punct {p : Punct} (h : p ≠ .dot) (h' : p ≠ .minus) : Solid p.text :=
  .inr (.inr (.inr ⟨p, h, h', rfl⟩))

theorem kw_word (k : Kw) (h : k ≠ .negInfinity) : Regex.word.Matches k.text :=
  word_iff.2 (by cases k <;> first | exact absurd rfl h | exact ⟨_, _, rfl, by decide, by decide⟩)

theorem solid_kw (k : Kw) : Solid k.text := by
  by_cases h : k = .negInfinity
  · subst h; exact .inr (.inl rfl)
  · exact .inl ⟨k.text, kw_word k h, .inl rfl⟩

theorem Stop.solid {p : Str} (h : Stop p) : Solid p := by
  simp [Stop] at h
  rcases h with rfl | rfl | rfl
  · exact solid_punct (p := .semiColon) (by decide) (by decide)
  · exact solid_punct (p := .comma) (by decide) (by decide)
  · exact solid_punct (p := .closeParen) (by decide) (by decide)

/-- Complete texts without `;`. -/
def Tidy (A : Lang) : Prop := ∀ ls, A ls → Good ls ∧ c!";" ∉ ls

/-- Texts without `;` that may end in a number. -/
def Loose (A : Lang) : Prop := ∀ ls, A ls →
  (∀ p, Stop p → ∀ b, Good b → Good (ls ++ p :: b)) ∧ c!";" ∉ ls

/-- Complete texts with a `;` at the end and nowhere else. -/
def Closed (A : Lang) : Prop := ∀ ls, A ls → ∃ a, ls = a ++ [c!";"] ∧ Good ls ∧ c!";" ∉ a

variable {A B : Lang}

theorem Tidy.loose (h : Tidy A) : Loose A := fun ls hl =>
  ⟨fun _ hp _ hb => (h ls hl).1.append (hp.solid.good hb), (h ls hl).2⟩

theorem Tidy.eps : Tidy eps := by
  rintro ls rfl
  exact ⟨trivial, by simp⟩

theorem Tidy.one {w : Str} (h : Solid w) (h' : w ≠ c!";") : Good [w] ∧ c!";" ∉ [w] :=
  ⟨h.good trivial, by simpa using h'.symm⟩

theorem Tidy.kw (k : Kw) : Tidy (tok k.text) := by
  rintro ls rfl
  exact Tidy.one (solid_kw k) (by cases k <;> simp [Kw.text])

theorem Tidy.punct (p : Punct) (h : p ≠ .dot ∧ p ≠ .minus ∧ p ≠ .semiColon := by decide) :
    Tidy (tok p.text) := by
  rintro ls rfl
  exact Tidy.one (solid_punct h.1 h.2.1) (by cases p <;> simp_all [Punct.text])

theorem name_ne_punct {i : Str} {p : Punct} (h : name i [p.text]) : False := by
  obtain ⟨c, v, h, h'⟩ := name_head h
  cases p <;> simp [Punct.text] at h <;> obtain ⟨rfl, rfl⟩ := h <;> simp at h'

theorem name_single {i : Str} {ls : List Str} (h : name i ls) : ∃ w, ls = [w] ∧ name i [w] := by
  obtain ⟨h1, rfl | rfl⟩ := h
  · exact ⟨_, rfl, h1, .inl rfl⟩
  · exact ⟨_, rfl, h1, .inr rfl⟩

theorem Tidy.name (i : Str) : Tidy (name i) := by
  intro ls h
  obtain ⟨w, rfl, h⟩ := name_single h
  exact Tidy.one (.inl ⟨i, h⟩) (by rintro rfl; exact name_ne_punct (p := .semiColon) h)

theorem Tidy.typeName (l : List Str) (i : Str) : Tidy (typeName l i) := by
  intro ls h
  refine Tidy.name i ls ⟨h.1, ?_⟩
  rcases h.2 with ⟨rfl, -⟩ | rfl
  · exact .inl rfl
  · exact .inr rfl

theorem Tidy.string (v : Str) : Tidy (string v) := by
  rintro ls ⟨h, rfl⟩
  exact Tidy.one (.inr (.inr (.inl ⟨v, h, rfl⟩))) (by simp)

theorem Tidy.seq (ha : Tidy A) (hb : Tidy B) : Tidy (A ⨾ B) := by
  rintro ls ⟨a, b, rfl, h1, h2⟩
  have h1 := ha a h1
  have h2 := hb b h2
  exact ⟨h1.1.append h2.1, by simp [h1.2, h2.2]⟩

theorem Tidy.avoiding {ps : List (List Str)} (ha : Tidy A) : Tidy (avoiding ps A) :=
  fun ls h => ha ls h.1

theorem Tidy.optKw (b : Bool) (k : Kw) : Tidy (optTok b k.text) := by
  cases b
  · exact .eps
  · exact .kw k

theorem Tidy.qmark (b : Bool) : Tidy (optTok b c!"?") := by
  cases b
  · exact .eps
  · exact .punct .qMark

theorem Tidy.comma : Tidy comma := .punct .comma

theorem Tidy.sepBy {sep : Lang} {As : List Lang} (hs : Tidy sep) (h : ∀ A ∈ As, Tidy A) :
    Tidy (sepBy sep As) := by
  induction As with
  | nil => exact .eps
  | cons A As ih =>
    simp only [List.forall_mem_cons] at h
    cases As with
    | nil => exact h.1
    | cons B As => exact .seq h.1 (.seq hs (ih h.2))

theorem Tidy.parens (h : Tidy A) : Tidy (parens A) := .seq (.punct .openParen) (.seq h (.punct .closeParen))
theorem Tidy.brackets (h : Tidy A) : Tidy (brackets A) :=
  .seq (.punct .openBracket) (.seq h (.punct .closeBracket))
theorem Tidy.braces (h : Tidy A) : Tidy (braces A) :=
  .seq (.punct .openBrace) (.seq h (.punct .closeBrace))
theorem Tidy.angles (h : Tidy A) : Tidy (angles A) :=
  .seq (.punct .lessThan) (.seq h (.punct .greaterThan))

theorem Tidy.named {i : Str} (h : Tidy A) : Tidy (named A i) := by
  rintro ls ⟨a, b, rfl, h1, h2, -⟩
  exact Tidy.seq h (.name i) _ ⟨a, b, rfl, h1, h2⟩

theorem Loose.thenLoose (ha : Tidy A) (hb : Loose B) : Loose (A ⨾ B) := by
  rintro ls ⟨a, b, rfl, h1, h2⟩
  have h1 := ha a h1
  have h2 := hb b h2
  refine ⟨fun p hp c hc => ?_, by simp [h1.2, h2.2]⟩
  rw [List.append_assoc]
  exact h1.1.append (h2.1 p hp c hc)

theorem Loose.sepBy {As : List Lang} (h : ∀ A ∈ As, Loose A) : Loose (sepBy comma As) := by
  induction As with
  | nil => exact Tidy.eps.loose
  | cons A As ih =>
    simp only [List.forall_mem_cons] at h
    cases As with
    | nil => exact h.1
    | cons B As =>
      rintro ls ⟨a, _, rfl, h1, _, b, rfl, rfl, h2⟩
      have h1 := h.1 a h1
      have h2 := ih h.2 b h2
      refine ⟨fun p hp c hc => ?_, by simp [h1.2, h2.2]⟩
      rw [List.append_assoc]
      exact h1.1 _ (by simp [Stop]) _ (h2.1 p hp c hc)

theorem Loose.parens (h : Loose A) : Tidy (parens A) := by
  rintro ls ⟨_, _, rfl, rfl, a, _, rfl, h1, rfl⟩
  have h1 := h a h1
  refine ⟨(solid_punct (p := .openParen) (by decide) (by decide)).good
    (h1.1 _ (by simp [Stop]) [] trivial), by simp [h1.2]⟩

theorem Loose.closed (h : Loose A) : Closed (A ⨾ tok c!";") := by
  rintro ls ⟨a, _, rfl, h1, rfl⟩
  have h1 := h a h1
  exact ⟨a, rfl, h1.1 _ (by simp [Stop]) [] trivial, h1.2⟩

theorem Tidy.closed (h : Tidy A) : Closed (A ⨾ tok c!";") := h.loose.closed

theorem Closed.thenClosed (ha : Tidy A) (hb : Closed B) : Closed (A ⨾ B) := by
  rintro ls ⟨a, b, rfl, h1, h2⟩
  have h1 := ha a h1
  obtain ⟨b, rfl, h2, h3⟩ := hb b h2
  exact ⟨a ++ b, by simp, h1.1.append h2, by simp [h1.2, h3]⟩

theorem Closed.avoiding {ps : List (List Str)} (ha : Closed A) : Closed (avoiding ps A) :=
  fun ls h => ha ls h.1

/-! ## Literals -/

theorem Number.not_semi {w : Str} (h : Number w) : w ≠ c!";" := by
  rintro rfl
  have := h.chars ';' (by simp)
  revert this
  unfold NumChar
  decide

theorem loose_number {v : Str} {re : Regex} (h : re.Matches v → Number v) : Loose (literal re v) := by
  rintro ls ⟨h1, rfl⟩
  refine ⟨fun p hp b hb => ⟨.inr ⟨h h1, p, b, rfl, hp⟩, hp.solid.good hb⟩, ?_⟩
  simpa using (h h1).not_semi.symm

theorem loose_integerLit (i : IntegerLit) : Loose (integerLit i) := by
  cases i
  · exact loose_number .inl
  · exact loose_number (.inr ∘ .inl)
  · exact loose_number (.inr ∘ .inr ∘ .inl)

theorem loose_floatLit (f : FloatLit) : Loose (floatLit f) := by
  cases f
  · exact loose_number (.inr ∘ .inr ∘ .inr)
  · exact (Tidy.kw .negInfinity).loose
  · exact (Tidy.kw .infinity).loose
  · exact (Tidy.kw .nan).loose

theorem tidy_booleanLit (b : Bool) : Tidy (booleanLit b) := by
  cases b
  · exact .kw .false
  · exact .kw .true

theorem loose_defaultValue (d : DefaultValue) : Loose (defaultValue d) := by
  cases d
  · exact (tidy_booleanLit _).loose
  · exact (Tidy.seq (.punct .openBracket) (.punct .closeBracket)).loose
  · exact (Tidy.seq (.punct .openBrace) (.punct .closeBrace)).loose
  · exact loose_floatLit _
  · exact loose_integerLit _
  · exact (Tidy.kw .null).loose
  · exact (Tidy.string _).loose

theorem loose_constValue (d : ConstValue) : Loose (constValue d) := by
  cases d
  · exact (tidy_booleanLit _).loose
  · exact loose_floatLit _
  · exact loose_integerLit _
  · exact (Tidy.kw .null).loose

theorem loose_default (d : Option DefaultValue) : Loose (Spec.default d) := by
  cases d
  · exact Tidy.eps.loose
  · exact .thenLoose (.punct .assign) (loose_defaultValue _)

/-! ## Types, attributes, arguments -/

theorem tidy_integerType (t : IntegerType) : Tidy (integerType t) := by
  cases t
  · exact .seq (.optKw _ .unsigned) (.seq (.kw .long) (.kw .long))
  · exact .seq (.optKw _ .unsigned) (.kw .long)
  · exact .seq (.optKw _ .unsigned) (.kw .short)

theorem tidy_floatingPointType (t : FloatingPointType) : Tidy (floatingPointType t) := by
  cases t
  · exact .seq (.optKw _ .unrestricted) (.kw .float)
  · exact .seq (.optKw _ .unrestricted) (.kw .double)

theorem tidy_builtin (b : Builtin) : Tidy (tok (builtinWord b)) := by
  have : builtinWord b = (G.builtinKw b).text := by cases b <;> rfl
  rw [this]
  exact .kw _

theorem tidy_idOrString (x : IdentifierOrString) : Tidy (identifierOrString x) := by
  cases x
  · exact .name _
  · exact .string _

theorem tidy_names (is : List Str) : ∀ A ∈ is.map name, Tidy A := by
  simp only [List.mem_map]
  rintro _ ⟨i, -, rfl⟩
  exact .name i

mutual

theorem tidy_type : ∀ t, Tidy (type t)
  | .single t => by simp only [type]; exact tidy_singleType t
  | .union ms q => by
    simp only [type]
    exact .seq (.parens (.sepBy (.kw .or) (tidy_unionMembers ms))) (.qmark q)

theorem tidy_singleType : ∀ t, Tidy (singleType t)
  | .any => by simp only [singleType]; exact .kw .any
  | .nonAny t => by simp only [singleType]; exact .avoiding (tidy_nonAnyType t)

theorem tidy_nonAnyType : ∀ t, Tidy (nonAnyType t)
  | .promise r => by simp only [nonAnyType]; exact .seq (.kw .promise) (.angles (tidy_returnType r))
  | .integer t q => by simp only [nonAnyType]; exact .seq (tidy_integerType t) (.qmark q)
  | .floatingPoint t q => by simp only [nonAnyType]; exact .seq (tidy_floatingPointType t) (.qmark q)
  | .builtin b q => by simp only [nonAnyType]; exact .seq (tidy_builtin b) (.qmark q)
  | .sequence t q => by
    simp only [nonAnyType]; exact .seq (.seq (.kw .sequence) (.angles (tidy_type t))) (.qmark q)
  | .frozenArray t q => by
    simp only [nonAnyType]; exact .seq (.seq (.kw .frozenArray) (.angles (tidy_type t))) (.qmark q)
  | .record k v q => by
    simp only [nonAnyType]
    exact .seq (.seq (.kw .record) (.angles (.seq (tidy_recordKeyType k) (.seq .comma (tidy_type v)))))
      (.qmark q)
  | .identifier i q => by simp only [nonAnyType]; exact .seq (.typeName _ _) (.qmark q)

theorem tidy_recordKeyType : ∀ t, Tidy (recordKeyType t)
  | .byte => by simp only [recordKeyType]; exact .kw .byteString
  | .dom => by simp only [recordKeyType]; exact .kw .domString
  | .usv => by simp only [recordKeyType]; exact .kw .usvString
  | .nonAny t => by simp only [recordKeyType]; exact .avoiding (tidy_nonAnyType t)

theorem tidy_unionMember : ∀ t, Tidy (unionMember t)
  | .single as t => by simp only [unionMember]; exact .seq (tidy_attributes as) (tidy_nonAnyType t)
  | .union ms q => by
    simp only [unionMember]
    exact .seq (.parens (.sepBy (.kw .or) (tidy_unionMembers ms))) (.qmark q)

theorem tidy_unionMembers : ∀ ms, ∀ A ∈ unionMembers ms, Tidy A
  | [] => by simp [unionMembers]
  | m :: ms => by
    simp only [unionMembers, List.forall_mem_cons]
    exact ⟨tidy_unionMember m, tidy_unionMembers ms⟩

theorem tidy_returnType : ∀ t, Tidy (returnType t)
  | .undefined => by simp only [returnType]; exact .kw .undefined
  | .type t => by simp only [returnType]; exact .avoiding (tidy_type t)

theorem tidy_extAttr : ∀ t, Tidy (extAttr t)
  | .argList i args => by
    simp only [extAttr]; exact .seq (.name i) (Loose.parens (.sepBy (loose_arguments args)))
  | .namedArgList l r args => by
    simp only [extAttr]
    exact .seq (.name l) (.seq (.punct .assign) (.seq (.name r)
      (Loose.parens (.sepBy (loose_arguments args)))))
  | .identList i is => by
    simp only [extAttr]
    exact .seq (.name i) (.seq (.punct .assign) (.parens (.sepBy .comma (tidy_names is))))
  | .ident l r => by
    simp only [extAttr]; exact .seq (.name l) (.seq (.punct .assign) (tidy_idOrString r))
  | .wildcard l => by
    simp only [extAttr]; exact .seq (.name l) (.seq (.punct .assign) (.punct .asterisk))
  | .noArgs i => by simp only [extAttr]; exact .name i

theorem tidy_extAttrs : ∀ as, ∀ A ∈ extAttrs as, Tidy A
  | [] => by simp [extAttrs]
  | m :: ms => by
    simp only [extAttrs, List.forall_mem_cons]
    exact ⟨tidy_extAttr m, tidy_extAttrs ms⟩

theorem tidy_attributes : ∀ as, Tidy (attributes as)
  | none => by simp only [attributes]; exact .eps
  | some as => by simp only [attributes]; exact .brackets (.sepBy .comma (tidy_extAttrs as))

theorem tidy_namedAttributed : ∀ t i, Tidy (namedAttributed t i)
  | .mk as t, i => by
    simp only [namedAttributed]; exact .seq (tidy_attributes as) (.named (tidy_type t))

theorem loose_argument : ∀ a, Loose (argument a)
  | .single as o t i d => by
    simp only [argument]
    refine .thenLoose (tidy_attributes as) ?_
    cases o
    · exact fun ls h => Tidy.loose (tidy_namedAttributed t i) ls h.2.1
    · exact .thenLoose (.kw .optional) (.thenLoose (tidy_namedAttributed t i) (loose_default d))
  | .variadic as t i => by
    simp only [argument]
    exact Tidy.loose (.seq (tidy_attributes as) (.seq (tidy_type t) (.seq (.punct .ellipsis) (.name i))))

theorem loose_arguments : ∀ as, ∀ A ∈ arguments as, Loose A
  | [] => by simp [arguments]
  | m :: ms => by
    simp only [arguments, List.forall_mem_cons]
    exact ⟨loose_argument m, loose_arguments ms⟩

end

theorem tidy_attributedType (t : AttributedType) : Tidy (attributedType t) := by
  obtain ⟨as, t⟩ := t
  simp only [attributedType]
  exact .seq (tidy_attributes as) (tidy_type t)

theorem tidy_argumentList (as : List Argument) : Tidy (argumentList as) :=
  Loose.parens (.sepBy (loose_arguments as))

theorem tidy_constType (t : ConstType) : Tidy (constType t) := by
  cases t
  · exact .seq (tidy_integerType _) (.qmark _)
  · exact .seq (tidy_floatingPointType _) (.qmark _)
  · exact .seq (.kw .boolean) (.qmark _)
  · exact .seq (.kw .byte) (.qmark _)
  · exact .seq (.kw .octet) (.qmark _)
  · exact .seq (.typeName _ _) (.qmark _)

/-! ## Members -/

theorem tidy_returnNamed (r : ReturnType) (i : Option Str) : Tidy (returnNamed r i) := by
  cases i
  · exact tidy_returnType r
  · exact .named (tidy_returnType r)

theorem closed_constMember (m : ConstMember) : Closed (constMember m) :=
  .thenClosed (tidy_attributes _) (.thenClosed (.kw .const) (.thenClosed (.named (tidy_constType _))
    (.thenClosed (.punct .assign) (loose_constValue _).closed)))

theorem tidy_modifier (m : Option StringifierOrInheritOrStatic) : Tidy (modifier m) := by
  rcases m with _ | m
  · exact .eps
  · cases m
    · exact .kw .stringifier
    · exact .kw .inherit
    · exact .kw .static

theorem closed_attributeInterfaceMember (m : AttributeInterfaceMember) :
    Closed (attributeInterfaceMember m) :=
  .thenClosed (tidy_attributes _) (.thenClosed (tidy_modifier _) (.thenClosed (.optKw _ .readOnly)
    (.thenClosed (.kw .attribute) (tidy_namedAttributed _ _).closed)))

theorem closed_constructorInterfaceMember (m : ConstructorInterfaceMember) :
    Closed (constructorInterfaceMember m) :=
  .thenClosed (tidy_attributes _) (.thenClosed (.kw .constructor) (tidy_argumentList _).closed)

theorem Closed.modified {m : Option StringifierOrStatic} (h : Closed A) : Closed (modified m A) := by
  rcases m with _ | m
  · exact h.avoiding
  · cases m
    · exact .thenClosed (.kw .stringifier) h
    · exact .thenClosed (.kw .static) h

theorem Closed.specialised {m : Option Special} (h : Closed A) : Closed (specialised m A) := by
  rcases m with _ | m
  · exact h.avoiding
  · cases m
    · exact .thenClosed (.kw .getter) h
    · exact .thenClosed (.kw .setter) h
    · exact .thenClosed (.kw .deleter) h
    · exact .thenClosed (.kw .legacyCaller) h

theorem Closed.optWord {b : Bool} {k : Kw} (h : Closed A) : Closed (optWord b k.text A) := by
  cases b
  · exact h.avoiding
  · exact .thenClosed (.kw k) h

theorem closed_operation (r : ReturnType) (i : Option Str) (as : List Argument) :
    Closed (returnNamed r i ⨾ argumentList as ⨾ tok c!";") :=
  .thenClosed (tidy_returnNamed _ _) (tidy_argumentList _).closed

theorem closed_operationInterfaceMember (m : OperationInterfaceMember) :
    Closed (operationInterfaceMember m) :=
  .thenClosed (tidy_attributes _) (.avoiding (.modified (.specialised (closed_operation _ _ _))))

theorem tidy_typePair (p : AttributedType × AttributedType) : Tidy (typePair p) :=
  .seq (tidy_attributedType _) (.seq .comma (tidy_attributedType _))

theorem tidy_optArgumentList (as : Option (List Argument)) : Tidy (optArgumentList as) := by
  cases as
  · exact .eps
  · exact tidy_argumentList _

theorem closed_iterable (m : IterableInterfaceMember) : Closed (iterableInterfaceMember m) := by
  cases m
  · exact .thenClosed (tidy_attributes _) (.thenClosed (.kw .iterable)
      (Tidy.closed (.angles (tidy_attributedType _))))
  · exact .thenClosed (tidy_attributes _) (.thenClosed (.kw .iterable)
      (Tidy.closed (.angles (tidy_typePair _))))

theorem closed_asyncIterable (m : AsyncIterableInterfaceMember) :
    Closed (asyncIterableInterfaceMember m) := by
  cases m
  · exact .thenClosed (tidy_attributes _) (.thenClosed (.kw .async) (.thenClosed (.kw .iterable)
      (.thenClosed (.angles (tidy_attributedType _)) (tidy_optArgumentList _).closed)))
  · exact .thenClosed (tidy_attributes _) (.thenClosed (.kw .async) (.thenClosed (.kw .iterable)
      (.thenClosed (.angles (tidy_typePair _)) (tidy_optArgumentList _).closed)))

theorem closed_maplike (m : MaplikeInterfaceMember) : Closed (maplikeInterfaceMember m) :=
  .thenClosed (tidy_attributes _) (.thenClosed (.optKw _ .readOnly) (.thenClosed (.kw .maplike)
      (Tidy.closed (.angles (tidy_typePair _)))))

theorem closed_setlike (m : SetlikeInterfaceMember) : Closed (setlikeInterfaceMember m) :=
  .thenClosed (tidy_attributes _) (.thenClosed (.optKw _ .readOnly) (.thenClosed (.kw .setlike)
      (Tidy.closed (.angles (tidy_attributedType _)))))

theorem closed_stringifierMember (m : StringifierMember) : Closed (stringifierMember m) :=
  .thenClosed (tidy_attributes _) (Tidy.closed (.kw .stringifier))

theorem closed_interfaceMember (m : InterfaceMember) : Closed (interfaceMember m) := by
  cases m
  · exact closed_constMember _
  · exact closed_attributeInterfaceMember _
  · exact closed_constructorInterfaceMember _
  · exact closed_operationInterfaceMember _
  · exact closed_iterable _
  · exact closed_asyncIterable _
  · exact closed_maplike _
  · exact closed_setlike _
  · exact closed_stringifierMember _

theorem closed_operationMixinMember (m : OperationMixinMember) : Closed (operationMixinMember m) :=
  .thenClosed (tidy_attributes _) (.optWord (k := .stringifier) (closed_operation _ _ _))

theorem closed_attributeMixinMember (m : AttributeMixinMember) : Closed (attributeMixinMember m) :=
  .thenClosed (tidy_attributes _) (.thenClosed (.optKw _ .stringifier)
    (.thenClosed (.optKw _ .readOnly) (.thenClosed (.kw .attribute) (tidy_namedAttributed _ _).closed)))

theorem closed_mixinMember (m : MixinMember) : Closed (mixinMember m) := by
  cases m
  · exact closed_constMember _
  · exact closed_operationMixinMember _
  · exact closed_attributeMixinMember _
  · exact closed_stringifierMember _

theorem closed_operationNamespaceMember (m : OperationNamespaceMember) :
    Closed (operationNamespaceMember m) :=
  .thenClosed (tidy_attributes _) (closed_operation _ _ _)

theorem closed_attributeNamespaceMember (m : AttributeNamespaceMember) :
    Closed (attributeNamespaceMember m) :=
  .thenClosed (tidy_attributes _) (.thenClosed (.kw .readOnly) (.thenClosed (.kw .attribute)
    (tidy_namedAttributed _ _).closed))

theorem closed_namespaceMember (m : NamespaceMember) : Closed (namespaceMember m) := by
  cases m
  · exact closed_constMember _
  · exact closed_operationNamespaceMember _
  · exact closed_attributeNamespaceMember _

theorem closed_dictionaryMember (m : DictionaryMember) : Closed (dictionaryMember m) :=
  .thenClosed (tidy_attributes _) (.optWord (k := .required) (.thenClosed (.named (tidy_type _))
    (loose_default _).closed))

/-! ## Definitions -/

/-- Only good lexemes. -/
def AllGood (A : Lang) : Prop := ∀ ls, A ls → Good ls

theorem Tidy.allGood (h : Tidy A) : AllGood A := fun ls hl => (h ls hl).1
theorem Closed.allGood (h : Closed A) : AllGood A := fun ls hl => by
  obtain ⟨a, -, h1, -⟩ := h ls hl
  exact h1

theorem AllGood.seq (h : AllGood A) (h' : AllGood B) : AllGood (A ⨾ B) := by
  rintro ls ⟨a, b, rfl, h1, h2⟩
  exact (h a h1).append (h' b h2)

theorem AllGood.concat {α : Type} {L : α → Lang} (h : ∀ a, AllGood (L a)) (l : List α) :
    AllGood (concat (l.map L)) := by
  induction l with
  | nil => exact Tidy.eps.allGood
  | cons a l ih => exact .seq (h a) ih

theorem AllGood.kw (k : Kw) (h : AllGood A) : AllGood (tok k.text ⨾ A) := .seq (Tidy.kw k).allGood h
theorem AllGood.punct (k : Punct) (h : AllGood A)
    (hk : k ≠ .dot ∧ k ≠ .minus ∧ k ≠ .semiColon := by decide) : AllGood (tok k.text ⨾ A) :=
  .seq (Tidy.punct k hk).allGood h
theorem AllGood.semi : AllGood (tok c!";") := by
  rintro ls rfl
  exact (Stop.solid (by simp [Stop])).good trivial

theorem allGood_body {α : Type} {L : α → Lang} (h : ∀ a, Closed (L a)) (l : List α) :
    AllGood (body L l) :=
  .seq (.punct .openBrace (.seq (.concat (fun a => (h a).allGood) l)
    (Tidy.punct .closeBrace).allGood)) .semi

theorem tidy_inheritance (i : Option Str) : Tidy (inheritance i) := by
  cases i
  · exact .eps
  · exact .seq (.punct .colon) (.name _)

theorem tidy_enumValues (vs : List Str) : Tidy (enumValues vs) := by
  rintro ls ⟨-, c, h⟩
  refine Tidy.seq (.sepBy .comma ?_) ?_ ls h
  · simp only [List.mem_map]
    rintro _ ⟨i, -, rfl⟩
    exact .string i
  · cases c
    · exact .eps
    · exact .comma

theorem allGood_definition (d : Definition) : AllGood (definition d) := by
  have ha := fun as => (tidy_attributes as).allGood
  have hn := fun i => (Tidy.name i).allGood
  have hi := fun i => (tidy_inheritance i).allGood
  cases d
  · exact .seq (ha _) (.kw .callback (.seq (hn _) (.punct .assign
      (.seq (tidy_returnType _).allGood (tidy_argumentList _).closed.allGood))))
  · exact .seq (ha _) (.kw .callback (.kw .interface (.seq (hn _) (.seq (hi _)
      (allGood_body closed_interfaceMember _)))))
  · exact .seq (ha _) (.kw .interface (.seq (hn _) (.seq (hi _)
      (allGood_body closed_interfaceMember _))))
  · exact .seq (ha _) (.kw .interface (.kw .mixin (.seq (hn _) (allGood_body closed_mixinMember _))))
  · exact .seq (ha _) (.kw .namespace (.seq (hn _) (allGood_body closed_namespaceMember _)))
  · exact .seq (ha _) (.kw .dictionary (.seq (hn _) (.seq (hi _)
      (allGood_body closed_dictionaryMember _))))
  · exact .seq (ha _) (.kw .partial (.kw .interface (.seq (hn _)
      (allGood_body closed_interfaceMember _))))
  · exact .seq (ha _) (.kw .partial (.kw .interface (.kw .mixin (.seq (hn _)
      (allGood_body closed_mixinMember _)))))
  · exact .seq (ha _) (.kw .partial (.kw .dictionary (.seq (hn _)
      (allGood_body closed_dictionaryMember _))))
  · exact .seq (ha _) (.kw .partial (.kw .namespace (.seq (hn _)
      (allGood_body closed_namespaceMember _))))
  · exact .seq (ha _) (.kw .enum (.seq (hn _) (Tidy.closed (.braces (tidy_enumValues _))).allGood))
  · exact .seq (ha _) (.kw .typedef (tidy_namedAttributed _ _).closed.allGood)
  · exact .seq (ha _) (.seq (Tidy.name _).avoiding.allGood (.kw .includes (Tidy.name _).closed.allGood))
  · exact .seq (ha _) (.seq (Tidy.name _).avoiding.allGood (.kw .implements (Tidy.name _).closed.allGood))

theorem allGood_definitions (ds : List Definition) : AllGood (definitions ds) :=
  .concat allGood_definition ds

end Verif
