import Verif.Proof.WebIDLDef
import Verif.Proof.Lexer

/-!
# Checking derivations of the grammar of Web IDL

`derives N ls` computes derivations. It is used to show that concrete documents meet the hypotheses of the theorems.
-/

namespace Verif.WebIDL
open Nom Spec Spec.WebIDL

def nonTerminals : List NonTerminal := [
  .Definitions, .Definition, .ArgumentNameKeyword, .CallbackOrInterfaceOrMixin, .InterfaceOrMixin, .InterfaceRest,
  .Partial, .PartialDefinition, .PartialInterfaceOrPartialMixin, .PartialInterfaceRest, .InterfaceMembers,
  .InterfaceMember, .PartialInterfaceMembers, .PartialInterfaceMember, .Inheritance, .MixinRest, .MixinMembers,
  .MixinMember, .IncludesStatement, .CallbackRestOrInterface, .CallbackInterfaceMembers, .CallbackInterfaceMember,
  .Const, .ConstValue, .BooleanLiteral, .FloatLiteral, .ConstType, .ReadOnlyMember, .ReadOnlyMemberRest,
  .ReadWriteAttribute, .InheritAttribute, .AttributeRest, .AttributeName, .AttributeNameKeyword, .OptionalReadOnly,
  .DefaultValue, .Operation, .RegularOperation, .SpecialOperation, .Special, .OperationRest, .OptionalOperationName,
  .OperationName, .OperationNameKeyword, .ArgumentList, .Arguments, .Argument, .ArgumentRest, .ArgumentName,
  .Ellipsis, .ReturnType, .Constructor, .Stringifier, .StringifierRest, .StaticMember, .StaticMemberRest, .Iterable,
  .OptionalType, .AsyncIterable, .OptionalArgumentList, .ReadWriteMaplike, .MaplikeRest, .ReadWriteSetlike,
  .SetlikeRest, .Namespace, .NamespaceMembers, .NamespaceMember, .Dictionary, .DictionaryMembers, .DictionaryMember,
  .DictionaryMemberRest, .PartialDictionary, .Default, .Enum, .EnumValueList, .EnumValueListComma,
  .EnumValueListString, .CallbackRest, .Typedef, .Type_, .TypeWithExtendedAttributes, .Generic, .Required,
  .SingleType, .UnionType, .UnionMemberType, .UnionMemberTypes, .DistinguishableType, .PrimitiveType,
  .UnrestrictedFloatType, .FloatType, .UnsignedIntegerType, .IntegerType, .OptionalLong, .StringType, .PromiseType,
  .RecordType, .Null, .BufferRelatedType, .ExtendedAttributeList, .ExtendedAttributes, .ExtendedAttribute,
  .ExtendedAttributeNoArgs, .ExtendedAttributeArgList, .ExtendedAttributeIdent, .ExtendedAttributeString,
  .ExtendedAttributeWildcard, .ExtendedAttributeIdentList, .ExtendedAttributeNamedArgList, .IdentifierList,
  .Identifiers]

theorem mem_nonTerminals (N : NonTerminal) : N ∈ nonTerminals := by cases N <;> decide

/-- The terminals in a list of symbols. -/
def terminalsOf (rhs : Alt) : List Str := rhs.filterMap fun
  | .t w => some w
  | _ => none

/-- The terminals of the grammar. -/
def terminals : List Str := nonTerminals.flatMap fun N => (productions N).flatMap terminalsOf

theorem mem_terminals {w : Str} (h : Terminal w) : w ∈ terminals := by
  obtain ⟨N, rhs, h1, h2⟩ := h
  exact List.mem_flatMap.2 ⟨N, mem_nonTerminals N, List.mem_flatMap.2 ⟨rhs, h1, List.mem_filterMap.2 ⟨_, h2, rfl⟩⟩⟩

/-- What can be left of `ls` after the symbols. -/
def rests : Nat → Alt → List Str → List (List Str)
  | 0, _, _ => []
  | _ + 1, [], ls => [ls]
  | k + 1, .n N :: ss, ls => ((productions N).flatMap fun rhs => rests k rhs ls).flatMap fun r => rests k ss r
  | _ + 1, _ :: _, [] => []
  | k + 1, .t w :: ss, v :: ls => if v = w then rests k ss ls else []
  | k + 1, .identifier :: ss, v :: ls => if whole .ident v && !terminals.contains v then rests k ss ls else []
  | k + 1, .integer :: ss, v :: ls => if whole .dec v || whole .oct v then rests k ss ls else []
  | k + 1, .decimal :: ss, v :: ls => if whole .float v then rests k ss ls else []
  | k + 1, .string :: ss, v :: ls => if whole .string v then rests k ss ls else []

theorem rests_sound {k : Nat} {ss : Alt} {ls r : List Str} (h : r ∈ rests k ss ls) :
    ∃ l, ls = l ++ r ∧ DerivesAll ss l := by
  induction k generalizing ss ls r with
  | zero => simp [rests] at h
  | succ k ih =>
    unfold rests at h
    split at h
    · rename_i h'
      simp at h'
    · simp at h
      exact ⟨[], by simp [h], .nil⟩
    · rename_i k' N ss ls h'
      simp at h'
      subst h'
      obtain ⟨r', h1, h2⟩ := List.mem_flatMap.1 h
      obtain ⟨rhs, h3, h4⟩ := List.mem_flatMap.1 h1
      obtain ⟨l1, rfl, h5⟩ := ih h4
      obtain ⟨l2, rfl, h6⟩ := ih h2
      exact ⟨l1 ++ l2, by simp, .nonTerminal (.mk h3 h5) h6⟩
    · simp at h
    · rename_i k' w ss v ls h'
      simp at h'
      subst h'
      split at h
      · rename_i hv
        obtain ⟨l, rfl, hl⟩ := ih h
        exact ⟨v :: l, rfl, hv ▸ .terminal hl⟩
      · simp at h
    · rename_i k' ss v ls h'
      simp at h'
      subst h'
      split at h
      · rename_i hv
        simp only [Bool.and_eq_true, Bool.not_eq_true', List.contains_eq_mem, decide_eq_false_iff_not] at hv
        obtain ⟨l, rfl, hl⟩ := ih h
        obtain ⟨i, h1, h2⟩ := whole_sound hv.1
        exact ⟨v :: l, rfl, .identifier ⟨identifier_name.2 ⟨i, h2, by rcases h1 with rfl | rfl <;> simp⟩,
          fun ht => hv.2 (mem_terminals ht)⟩ hl⟩
      · simp at h
    · rename_i k' ss v ls h'
      simp at h'
      subst h'
      split at h
      · rename_i hv
        simp only [Bool.or_eq_true] at hv
        obtain ⟨l, rfl, hl⟩ := ih h
        refine ⟨v :: l, rfl, .integer ?_ hl⟩
        rcases hv with hv | hv
        · obtain ⟨i, rfl, h2⟩ := whole_sound hv
          obtain ⟨a, b, rfl, ha, hb⟩ := Regex.matches_seq.1 h2
          exact .seq ha (.left hb)
        · obtain ⟨i, rfl, h2⟩ := whole_sound hv
          obtain ⟨a, b, rfl, ha, hb⟩ := Regex.matches_seq.1 h2
          exact .seq ha (.right (.right hb))
      · simp at h
    · rename_i k' ss v ls h'
      simp at h'
      subst h'
      split at h
      · rename_i hv
        obtain ⟨l, rfl, hl⟩ := ih h
        obtain ⟨i, rfl, h2⟩ := whole_sound hv
        exact ⟨_, rfl, .decimal h2 hl⟩
      · simp at h
    · rename_i k' ss v ls h'
      simp at h'
      subst h'
      split at h
      · rename_i hv
        obtain ⟨l, rfl, hl⟩ := ih h
        obtain ⟨i, h1, h2⟩ := whole_sound hv
        exact ⟨_, rfl, .string (string_item.2 ⟨i, h2, by rw [h1]⟩) hl⟩
      · simp at h

/-- `N` derives `ls`; `k` bounds the depth of the search. -/
def derives (k : Nat) (N : NonTerminal) (ls : List Str) : Bool := (rests k [.n N] ls).contains []

theorem derives_sound {k : Nat} {N : NonTerminal} {ls : List Str} (h : derives k N ls = true) : Derives N ls := by
  obtain ⟨l, h1, h2⟩ := rests_sound (by simpa [derives] using h : [] ∈ rests k [.n N] ls)
  simp at h1
  subst h1
  cases h2 with
  | nonTerminal hN h' =>
    cases h'
    simpa using hN

example : derives 60 .Definitions [c!"typedef", c!"(", c!"DOMString", c!"or", c!"Foo", c!"?", c!")", c!"x", c!";"] = true := by
  decide +kernel

/-! ## The classes of tokens -/

/-- A token of the grammar. -/
def Token (w : Str) : Prop := Terminal w ∨ Identifier w ∨ Integer w ∨ Decimal w ∨ Spec.WebIDL.String w

mutual

theorem derives_tokens : ∀ {N : NonTerminal} {ls : List Str}, Derives N ls → ∀ w ∈ ls, Token w
  | N, _, .mk (rhs := rhs) h hs => derivesAll_tokens hs fun w hw => ⟨N, rhs, h, hw⟩

theorem derivesAll_tokens : ∀ {rhs : Alt} {ls : List Str}, DerivesAll rhs ls →
    (∀ w, Symbol.t w ∈ rhs → Terminal w) → ∀ w ∈ ls, Token w
  | _, _, .nil, _ => by simp
  | _, _, .terminal hs, ht => List.forall_mem_cons.2
      ⟨.inl (ht _ (by simp)), derivesAll_tokens hs fun w hw => ht w (by simp [hw])⟩
  | _, _, .nonTerminal h hs, ht => fun w hw => by
      rcases List.mem_append.1 hw with hw | hw
      · exact derives_tokens h w hw
      · exact derivesAll_tokens hs (fun w hw => ht w (by simp [hw])) w hw
  | _, _, .identifier h hs, ht => List.forall_mem_cons.2
      ⟨.inr (.inl h), derivesAll_tokens hs fun w hw => ht w (by simp [hw])⟩
  | _, _, .integer h hs, ht => List.forall_mem_cons.2
      ⟨.inr (.inr (.inl h)), derivesAll_tokens hs fun w hw => ht w (by simp [hw])⟩
  | _, _, .decimal h hs, ht => List.forall_mem_cons.2
      ⟨.inr (.inr (.inr (.inl h))), derivesAll_tokens hs fun w hw => ht w (by simp [hw])⟩
  | _, _, .string h hs, ht => List.forall_mem_cons.2
      ⟨.inr (.inr (.inr (.inr h))), derivesAll_tokens hs fun w hw => ht w (by simp [hw])⟩

end

theorem not_token_0x : ¬ Token c!"0x" := by
  rintro (h | h | h | h | h)
  · have := mem_terminals h
    revert this
    decide +kernel
  · obtain ⟨i, h1, h2⟩ := identifier_name.1 h.1
    obtain ⟨c, v, rfl, h3, -⟩ := word_cons h1
    simp at h2
    obtain ⟨rfl, -⟩ := h2
    revert h3
    decide
  · obtain ⟨g, v, he, hg, hv⟩ := Regex.matches_seq.1 h
    have hg : g = [] := by
      rcases sign_matches.1 hg with rfl | rfl
      · rfl
      · simp at he
    subst hg
    simp only [List.nil_append] at he
    subst he
    rcases Regex.matches_alt.1 hv with hv | hv
    · obtain ⟨a, b, he, ha, -⟩ := Regex.matches_seq.1 hv
      obtain ⟨c, rfl, hc⟩ := Regex.matches_cls.1 ha
      simp at he
      obtain ⟨rfl, -⟩ := he
      revert hc
      decide
    · rcases Regex.matches_alt.1 hv with hv | hv
      · obtain ⟨a, _, he, ha, hb⟩ := Regex.matches_seq.1 hv
        obtain ⟨x, d, rfl, hx, hd⟩ := Regex.matches_seq.1 hb
        obtain ⟨e, _, rfl, hc, -⟩ := Regex.matches_seq.1 hd
        obtain rfl := Regex.matches_chr.1 ha
        obtain ⟨c, rfl, -⟩ := Regex.matches_cls.1 hc
        rcases Regex.matches_alt.1 hx with hx | hx <;> obtain rfl := Regex.matches_chr.1 hx <;> simp at he
      · obtain ⟨a, b, he, ha, hb⟩ := Regex.matches_seq.1 hv
        obtain rfl := Regex.matches_chr.1 ha
        simp at he
        subst he
        have := Regex.matches_star_cls.1 hb 'x' (by simp)
        revert this
        decide
  · exact hex_no_float (w := c!"0x") (.seq (u := []) (sign_matches.2 (.inl rfl)) (.seq (u := ['0']) (.cls rfl)
      (.seq (u := ['x']) (.right (.cls rfl)) .starNil))) (List.prefix_refl _) h
  · obtain ⟨v, -, h⟩ := string_item.1 h
    simp at h

end Verif.WebIDL
