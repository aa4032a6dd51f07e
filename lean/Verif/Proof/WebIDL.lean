import Verif.Spec.WebIDL
import Verif.Proof.Lexing

/-! # Web IDL is contained in the grammar of the parser -/

namespace Verif.WebIDL
open Nom Spec Spec.WebIDL

/-! ## Lists of languages -/

/-- The languages one after the other. -/
def cat : List Lang → Lang
  | [] => eps
  | [A] => A
  | A :: B :: As => A ⨾ cat (B :: As)

theorem cat_cons {A : Lang} {As : List Lang} {a b : List Str} (ha : A a) (hb : cat As b) : cat (A :: As) (a ++ b) := by
  cases As with
  | nil =>
    have hb : b = [] := hb
    subst hb
    simpa [cat] using ha
  | cons B As => exact ⟨a, b, rfl, ha, hb⟩

theorem seq_assoc (A B C : Lang) : ((A ⨾ B) ⨾ C) = (A ⨾ B ⨾ C) := by
  funext ls
  apply propext
  constructor
  · rintro ⟨_, c, rfl, ⟨a, b, rfl, ha, hb⟩, hc⟩
    exact ⟨a, b ++ c, by simp, ha, b, c, rfl, hb, hc⟩
  · rintro ⟨a, _, rfl, ha, b, c, rfl, hb, hc⟩
    exact ⟨a ++ b, c, by simp, ⟨a, b, rfl, ha, hb⟩, hc⟩

theorem seq_mk {A B : Lang} {a b : List Str} (ha : A a) (hb : B b) : (A ⨾ B) (a ++ b) := ⟨a, b, rfl, ha, hb⟩

theorem seq_nil {A B : Lang} {b : List Str} (ha : A []) (hb : B b) : (A ⨾ B) b := ⟨[], b, rfl, ha, hb⟩

theorem sepBy_cons {sep A B : Lang} {As : List Lang} {a b c : List Str} (ha : A a) (hs : sep b)
    (h : sepBy sep (B :: As) c) : sepBy sep (A :: B :: As) (a ++ (b ++ c)) := ⟨a, _, rfl, ha, b, c, rfl, hs, h⟩

theorem optTok_some {w : Str} : optTok true w [w] := rfl
theorem optTok_none {w : Str} : optTok false w [] := rfl

theorem named_mk {T : Lang} {i : Str} {a b : List Str} (ha : T a) (hb : name i b) (h : ∀ a, a ++ b ∉ twoWordTypes) :
    named T i (a ++ b) := ⟨a, b, rfl, ha, hb, h a⟩

theorem arguments_map (as : List Argument) : arguments as = as.map argument := by
  induction as with
  | nil => rfl
  | cons a as ih => rw [arguments, ih]; rfl

theorem extAttrs_map (as : List ExtAttr) : extAttrs as = as.map extAttr := by
  induction as with
  | nil => rfl
  | cons a as ih => rw [extAttrs, ih]; rfl

theorem unionMembers_map (as : List UnionMember) : unionMembers as = as.map unionMember := by
  induction as with
  | nil => rfl
  | cons a as ih => rw [unionMembers, ih]; rfl

theorem parens_mk {A B : Lang} {a b : List Str} (ha : A a) (hb : B b) :
    (parens A ⨾ B) ([c!"("] ++ (a ++ ([c!")"] ++ b))) := by
  unfold parens
  simp only [seq_assoc]
  exact seq_mk rfl (seq_mk ha (seq_mk rfl hb))

theorem angles_mk {A B : Lang} {a b : List Str} (ha : A a) (hb : B b) :
    (angles A ⨾ B) ([c!"<"] ++ (a ++ ([c!">"] ++ b))) := by
  unfold angles
  simp only [seq_assoc]
  exact seq_mk rfl (seq_mk ha (seq_mk rfl hb))

theorem braces_mk {A B : Lang} {a b : List Str} (ha : A a) (hb : B b) :
    (braces A ⨾ B) ([c!"{"] ++ (a ++ ([c!"}"] ++ b))) := by
  unfold braces
  simp only [seq_assoc]
  exact seq_mk rfl (seq_mk ha (seq_mk rfl hb))

/-! ## Tokens -/

/-- Terminals with which no type begins. -/
def stop : List Str := [c!"constructor", c!"stringifier", c!"static", c!"getter", c!"setter", c!"deleter",
  c!"legacycaller", c!"optional", c!"required", c!"["]

/-- The tokens begin with something that may begin a type, and with `undefined` only if that is all. -/
def Hd (ls : List Str) : Prop := ∃ w r, ls = w :: r ∧ w ∉ stop ∧ (w = c!"undefined" → r = [])

/-- The tokens begin with something that may begin a type, but neither with `any` nor with `undefined`. -/
def Hd1 (ls : List Str) : Prop := ∃ w r, ls = w :: r ∧ w ∉ c!"any" :: c!"undefined" :: stop

theorem Hd1.append {a : List Str} (h : Hd1 a) (b : List Str) : Hd1 (a ++ b) := by
  obtain ⟨w, r, rfl, h⟩ := h
  exact ⟨w, r ++ b, rfl, h⟩

theorem Hd1.hd {a : List Str} (h : Hd1 a) : Hd a := by
  obtain ⟨w, r, rfl, h⟩ := h
  simp only [List.mem_cons, not_or] at h
  exact ⟨w, r, rfl, by simpa [stop] using h.2.2, fun hw => absurd hw h.2.1⟩

/-- The tokens begin with something that may begin a type. -/
def Hd0 (ls : List Str) : Prop := ∃ w r, ls = w :: r ∧ w ∉ stop

theorem Hd.hd0 {a : List Str} (h : Hd a) (b : List Str) : Hd0 (a ++ b) := by
  obtain ⟨w, r, rfl, h, -⟩ := h
  exact ⟨w, r ++ b, rfl, h⟩

theorem Hd0.avoid {A : Lang} {ls : List Str} (h : Hd0 ls) (hA : A ls) (ps : List (List Str))
    (hp : ∀ p ∈ ps, ∃ w ∈ stop, p = w :: p.tail) : avoiding ps A ls := by
  refine ⟨hA, fun p hp' hpre => ?_⟩
  obtain ⟨w, hw, he⟩ := hp p hp'
  obtain ⟨w', r', rfl, hw'⟩ := h
  obtain ⟨x, hx⟩ := hpre
  rw [he] at hx
  simp at hx
  exact hw' (hx.1 ▸ hw)

/-- A word that is a name and does not complete a type. -/
def Nm (ls : List Str) : Prop := ∃ i, name i ls ∧ ∀ a, a ++ ls ∉ twoWordTypes

def Idf (ls : List Str) : Prop := ∃ w, ls = [w] ∧ Identifier w

theorem append_single {a : List Str} {w : Str} (h : w ∉ [c!"long", c!"short", c!"float", c!"double"]) :
    a ++ [w] ∉ twoWordTypes := by
  intro hm
  apply h
  have : ∀ l ∈ twoWordTypes, ∀ x, l.getLast? = some x → x ∈ [c!"long", c!"short", c!"float", c!"double"] := by decide
  exact this _ hm w (by simp)

theorem nm_word {w : Str} (h1 : Regex.word.Matches w) (h2 : w ∉ [c!"long", c!"short", c!"float", c!"double"]) : Nm [w] :=
  ⟨w, ⟨h1, .inl rfl⟩, fun _ => append_single h2⟩

theorem terminals_of {Ns : List NonTerminal} {ws : List Str}
    (h : ∀ w ∈ ws, ∃ N ∈ Ns, ∃ rhs ∈ productions N, Symbol.t w ∈ rhs) : ∀ w ∈ ws, Terminal w := fun w hw => by
  obtain ⟨N, -, h⟩ := h w hw
  exact ⟨N, h⟩

/-- Words that are terminals and are types for the parser. -/
theorem terminal_types (w : Str) (h : w ∈ typeWords) (h' : w ∉ [c!"Error", c!"ArrayBufferView", c!"BufferSource"]) :
    Terminal w := by
  have key : ∀ w ∈ typeWords.filter (· ∉ [c!"Error", c!"ArrayBufferView", c!"BufferSource"]), Terminal w :=
    terminals_of (Ns := [.IntegerType, .FloatType, .PrimitiveType, .StringType, .DistinguishableType,
      .BufferRelatedType]) (by decide +kernel)
  exact key w (by simpa using ⟨h, by simpa using h'⟩)

theorem terminal_stop (w : Str) (h : w ∈ stop) : Terminal w :=
  terminals_of (ws := stop) (Ns := [.Constructor, .Stringifier, .StaticMember, .Special, .ArgumentRest, .DictionaryMemberRest,
    .ExtendedAttributeList]) (by decide +kernel) w h

theorem terminal_any : ∀ w ∈ [c!"any", c!"undefined", c!"typedef"], Terminal w :=
  terminals_of (Ns := [.SingleType, .DistinguishableType, .Typedef]) (by decide +kernel)

theorem Idf.name {ls : List Str} (h : Idf ls) : ∃ i, Spec.name i ls := by
  obtain ⟨w, rfl, h, -⟩ := h
  exact identifier_name.1 h

theorem Idf.nm {ls : List Str} (h : Idf ls) : Nm ls := by
  obtain ⟨i, hi⟩ := h.name
  obtain ⟨w, rfl, -, h⟩ := h
  refine ⟨i, hi, fun a => append_single fun hw => h ?_⟩
  have : ∀ w ∈ [c!"long", c!"short", c!"float", c!"double"],
    w ∈ typeWords ∧ w ∉ [c!"Error", c!"ArrayBufferView", c!"BufferSource"] := by decide
  exact terminal_types w (this w hw).1 (this w hw).2

theorem Idf.hd1 {ls : List Str} (h : Idf ls) : Hd1 ls := by
  obtain ⟨w, rfl, -, h⟩ := h
  refine ⟨w, [], rfl, fun hw => h ?_⟩
  rcases List.mem_cons.1 hw with rfl | hw
  · exact terminal_any _ (by decide)
  · rcases List.mem_cons.1 hw with rfl | hw
    · exact terminal_any _ (by decide)
    · exact terminal_stop w hw

theorem Idf.avoid {ls : List Str} (h : Idf ls) {w : Str} (hw : Terminal w) : ¬ [w] <+: ls := by
  obtain ⟨v, rfl, -, h⟩ := h
  intro hp
  simp at hp
  exact h (hp ▸ hw)

theorem word_typeName {w : Str} {ws : List Str} (h : Regex.word.Matches w) (hw : w ∉ ws) : typeName ws w [w] :=
  ⟨h, .inl ⟨rfl, hw⟩⟩

theorem Idf.typeName {ls : List Str} (h : Idf ls) {ws : List Str} (hw : ∀ w ∈ ws, Terminal w) :
    ∃ i, Spec.typeName ws i ls := by
  obtain ⟨i, h1, h2⟩ := h.name
  obtain ⟨w, rfl, -, h⟩ := h
  refine ⟨i, h1, ?_⟩
  rcases h2 with h2 | h2
  · simp at h2
    subst h2
    exact .inl ⟨rfl, fun hi => h (hw _ hi)⟩
  · exact .inr h2

/-- An identifier of the standard is a type: by its name, or because it is one of three types of the parser. -/
theorem Idf.type {ls b : List Str} {q : Bool} (h : Idf ls) (hq : optTok q c!"?" b) : ∃ t, nonAnyType t (ls ++ b) := by
  by_cases hs : ∃ b : Builtin, ls = [builtinWord b]
  · obtain ⟨b', rfl⟩ := hs
    exact ⟨.builtin b' q, seq_mk rfl hq⟩
  · obtain ⟨i, h1, h2⟩ := h.name
    refine ⟨.identifier i q, seq_mk ⟨h1, ?_⟩ hq⟩
    rcases h2 with rfl | h2
    · refine .inl ⟨rfl, fun hi => ?_⟩
      obtain ⟨w, hw, -, ht⟩ := h
      simp at hw
      subst hw
      by_cases hx : i ∈ [c!"Error", c!"ArrayBufferView", c!"BufferSource"]
      · have : ∀ w ∈ [c!"Error", c!"ArrayBufferView", c!"BufferSource"],
            w = builtinWord .error ∨ w = builtinWord .arrayBufferView ∨ w = builtinWord .bufferSource := by decide
        rcases this _ hx with h | h | h <;> exact hs ⟨_, by rw [h]⟩
      · exact ht (terminal_types i hi hx)
    · exact .inr h2

/-! ## What each nonterminal is for the parser -/

/-- spellings of some element -/
def Ex {α : Type} (L : α → Lang) : Lang := fun ls => ∃ a, L a ls

/-- Together with attributes, a definition. -/
def DefL : Lang := fun ls => ∀ as l0, attributes as l0 → ∃ d, definition d (l0 ++ ls)
/-- Together with attributes, a member of an interface. -/
def IM : Lang := fun ls => ∀ as l0, attributes as l0 → ∃ m, interfaceMember m (l0 ++ ls)
/-- Together with attributes, a member of a mixin. -/
def MM : Lang := fun ls => ∀ as l0, attributes as l0 → ∃ m, mixinMember m (l0 ++ ls)
/-- Together with attributes, a member of a namespace. -/
def NM : Lang := fun ls => ∀ as l0, attributes as l0 → ∃ m, namespaceMember m (l0 ++ ls)
/-- Together with something, a list. -/
def Tail {α : Type} (sep : Lang) (L : α → Lang) : Lang := fun ls =>
  ∃ xs : List α, ∀ (A : Lang) l0, A l0 → sepBy sep (A :: xs.map L) (l0 ++ ls)
/-- A type. -/
def TyL : Lang := fun ls => Ex type ls ∧ Hd ls
/-- A type that may be followed by `?`. -/
def NullableL : Lang := fun ls => (∀ q b, optTok q c!"?" b → ∃ t, nonAnyType t (ls ++ b)) ∧ Hd1 ls

/-- The tokens do not begin with a type of strings. -/
def Hk (ls : List Str) : Prop := ∃ w r, ls = w :: r ∧ w ∉ [c!"ByteString", c!"DOMString", c!"USVString"]

theorem Hk.append {a : List Str} (h : Hk a) (b : List Str) : Hk (a ++ b) := by
  obtain ⟨w, r, rfl, h⟩ := h
  exact ⟨w, r ++ b, rfl, h⟩

def M : NonTerminal → Lang
  | .Definitions => Ex definitions
  | .Definition | .CallbackOrInterfaceOrMixin | .Partial | .Dictionary | .Enum | .Typedef | .IncludesStatement => DefL
  | .Namespace => fun ls => DefL ls ∧ DefL ([c!"partial"] ++ ls)
  | .ArgumentNameKeyword | .AttributeNameKeyword | .OperationNameKeyword | .ArgumentName | .AttributeName
  | .OperationName => Nm
  | .InterfaceOrMixin => fun ls => DefL ([c!"interface"] ++ ls)
  | .InterfaceRest => fun ls => DefL ([c!"interface"] ++ ls) ∧ DefL ([c!"callback"] ++ ([c!"interface"] ++ ls))
  | .MixinRest => fun ls => DefL ([c!"interface"] ++ ls) ∧ DefL ([c!"partial"] ++ ([c!"interface"] ++ ls))
  | .PartialDefinition | .PartialDictionary => fun ls => DefL ([c!"partial"] ++ ls)
  | .PartialInterfaceOrPartialMixin | .PartialInterfaceRest => fun ls => DefL ([c!"partial"] ++ ([c!"interface"] ++ ls))
  | .CallbackRestOrInterface | .CallbackRest => fun ls => DefL ([c!"callback"] ++ ls)
  | .InterfaceMembers | .PartialInterfaceMembers | .CallbackInterfaceMembers =>
    Ex fun ms : List InterfaceMember => concat (ms.map interfaceMember)
  | .MixinMembers => Ex fun ms : List MixinMember => concat (ms.map mixinMember)
  | .NamespaceMembers => Ex fun ms : List NamespaceMember => concat (ms.map namespaceMember)
  | .DictionaryMembers => Ex fun ms : List DictionaryMember => concat (ms.map dictionaryMember)
  | .InterfaceMember | .PartialInterfaceMember | .CallbackInterfaceMember | .Constructor | .Operation
  | .StaticMember | .ReadOnlyMember | .ReadWriteAttribute | .ReadWriteMaplike | .ReadWriteSetlike | .InheritAttribute
  | .Iterable | .AsyncIterable => IM
  | .SpecialOperation => fun ls => IM ls ∧ IM ([c!"stringifier"] ++ ls) ∧ IM ([c!"static"] ++ ls)
  | .MixinMember => MM
  | .NamespaceMember => NM
  | .Stringifier => fun ls => IM ls ∧ MM ls
  | .StringifierRest => fun ls => IM ([c!"stringifier"] ++ ls) ∧ MM ([c!"stringifier"] ++ ls)
  | .StaticMemberRest => fun ls => IM ([c!"static"] ++ ls)
  | .ReadOnlyMemberRest => fun ls => IM ([c!"readonly"] ++ ls)
  | .MaplikeRest | .SetlikeRest => fun ls => IM ls ∧ IM ([c!"readonly"] ++ ls)
  | .AttributeRest => fun ls => ∃ t i, (tok c!"attribute" ⨾ namedAttributed t i ⨾ tok c!";") ls
  | .Const => fun ls => ∀ as l0, attributes as l0 → ∃ m, constMember m (l0 ++ ls)
  | .RegularOperation => fun ls => Hd0 ls ∧ ∃ r o args, (returnNamed r o ⨾ argumentList args ⨾ tok c!";") ls
  | .Special => fun ls => ∃ s w, ls = [w] ∧ w ∉ [c!"constructor", c!"stringifier", c!"static"] ∧
      ∀ (A : Lang) b, A b → specialised (some s) A ([w] ++ b)
  | .OptionalReadOnly => Ex fun b => optTok b c!"readonly"
  | .OperationRest => fun ls => ∃ o args, ∀ r a, returnType r a →
      (returnNamed r o ⨾ argumentList args ⨾ tok c!";") (a ++ ls)
  | .OptionalOperationName => fun ls => ∃ o, ∀ r a, returnType r a → returnNamed r o (a ++ ls)
  | .ConstValue => Ex constValue
  | .BooleanLiteral => Ex booleanLit
  | .FloatLiteral => Ex floatLit
  | .ConstType => Ex constType
  | .DefaultValue => Ex defaultValue
  | .Default => Ex Spec.default
  | .Inheritance => Ex inheritance
  | .ArgumentList => Ex fun as => sepBy comma (arguments as)
  | .Arguments => Tail comma argument
  | .Argument => Ex argument
  | .ArgumentRest => fun ls => ∀ as l0, attributes as l0 → ∃ a, argument a (l0 ++ ls)
  | .Ellipsis => Ex fun b => optTok b c!"..."
  | .ReturnType => fun ls => Ex returnType ls ∧ Hd ls
  | .OptionalType => fun ls => ls = [] ∨ ∃ t, (comma ⨾ attributedType t) ls
  | .OptionalArgumentList => Ex optArgumentList
  | .DictionaryMember => Ex dictionaryMember
  | .DictionaryMemberRest => fun ls => ∀ as l0, attributes as l0 → ∃ m, dictionaryMember m (l0 ++ ls)
  | .EnumValueList => Ex enumValues
  | .EnumValueListComma => fun ls => ∀ v l0, string v l0 → ∃ vs, enumValues (v :: vs) (l0 ++ ls)
  | .EnumValueListString => fun ls => ∀ v l0, string v l0 → ∃ vs, enumValues (v :: vs) (l0 ++ ([c!","] ++ ls))
  | .Type_ | .Generic | .Required | .SingleType => TyL
  | .PromiseType => fun ls => TyL ls ∧ Ex nonAnyType ls ∧ Hk ls
  | .TypeWithExtendedAttributes => fun ls => Ex attributedType ls ∧ ∃ a b, ls = a ++ b ∧ Ex attributes a ∧ TyL b
  | .UnionType => Ex fun ms => parens (sepBy (tok c!"or") (unionMembers ms))
  | .UnionMemberType => Ex unionMember
  | .UnionMemberTypes => Tail (tok c!"or") unionMember
  | .DistinguishableType => fun ls => Ex nonAnyType ls ∧ Hd ls ∧ ¬ [c!"any"] <+: ls
  | .PrimitiveType => fun ls => NullableL ls ∧ (∀ q b, optTok q c!"?" b → Ex constType (ls ++ b)) ∧ Hk ls
  | .BufferRelatedType | .RecordType => fun ls => NullableL ls ∧ Hk ls
  | .StringType => fun ls => NullableL ls ∧ Ex recordKeyType ls
  | .UnrestrictedFloatType => Ex floatingPointType
  | .FloatType => fun ls => Ex floatingPointType ls ∧ Ex floatingPointType ([c!"unrestricted"] ++ ls)
  | .UnsignedIntegerType => Ex integerType
  | .IntegerType => fun ls => Ex integerType ls ∧ Ex integerType ([c!"unsigned"] ++ ls)
  | .OptionalLong => fun ls => Ex integerType ([c!"long"] ++ ls) ∧ Ex integerType ([c!"unsigned"] ++ ([c!"long"] ++ ls))
  | .Null => Ex fun q => optTok q c!"?"
  | .ExtendedAttributeList => Ex attributes
  | .ExtendedAttributes => Tail comma extAttr
  | .ExtendedAttribute | .ExtendedAttributeNoArgs | .ExtendedAttributeArgList | .ExtendedAttributeIdent
  | .ExtendedAttributeString | .ExtendedAttributeWildcard | .ExtendedAttributeIdentList
  | .ExtendedAttributeNamedArgList => Ex extAttr
  | .IdentifierList => Ex fun is : List Str => sepBy comma (is.map name)
  | .Identifiers => Tail comma name

def S : Symbol → Lang
  | .t w => tok w
  | .n N => M N
  | .identifier => Idf
  | .integer => Ex integerLit
  | .decimal => Ex floatLit
  | .string => Ex string

def Closed (N : NonTerminal) : Prop := ∀ rhs ∈ productions N, ∀ ls, cat (rhs.map S) ls → M N ls

theorem integer_lit {w : Str} (h : Integer w) : Ex integerLit [w] := by
  obtain ⟨g, v, rfl, hg, hv⟩ := Regex.matches_seq.1 h
  cases hv with
  | left hv => exact ⟨.dec _, .seq hg hv, rfl⟩
  | right hv =>
    cases hv with
    | left hv =>
      obtain ⟨a, b, rfl, ha, hb⟩ := Regex.matches_seq.1 hv
      obtain ⟨c, d, rfl, hc, hd⟩ := Regex.matches_seq.1 hb
      obtain ⟨e, f, rfl, he, hf⟩ := Regex.matches_seq.1 hd
      exact ⟨.hex _, .seq hg (.seq ha (.seq hc (.starCons he hf))), rfl⟩
    | right hv => exact ⟨.oct _, .seq hg hv, rfl⟩

mutual

theorem derives_M (H : ∀ N, Closed N) : ∀ {N : NonTerminal} {ls : List Str}, Derives N ls → M N ls
  | _, _, .mk h hs => H _ _ h _ (derivesAll_M H hs)

theorem derivesAll_M (H : ∀ N, Closed N) : ∀ {rhs : Alt} {ls : List Str}, DerivesAll rhs ls → cat (rhs.map S) ls
  | _, _, .nil => rfl
  | _, _, .terminal hs => cat_cons (a := [_]) rfl (derivesAll_M H hs)
  | _, _, .nonTerminal h hs => cat_cons (derives_M H h) (derivesAll_M H hs)
  | _, _, .identifier h hs => cat_cons (A := Idf) ⟨_, rfl, h⟩ (derivesAll_M H hs)
  | _, _, .integer h hs => cat_cons (A := Ex integerLit) (integer_lit h) (derivesAll_M H hs)
  | _, _, .decimal h hs => cat_cons (A := Ex floatLit) ⟨.value _, h, rfl⟩ (derivesAll_M H hs)
  | _, _, .string h hs => cat_cons (A := Ex string) (string_item.1 h) (derivesAll_M H hs)

end

end Verif.WebIDL
